#!/usr/bin/env python3
"""Puts the Windows test data of /repo through the model and compares with the expected symbol files.

    cd /verif/lean && lake build Verif.Compare && python3 ../compare/windows.py

Not part of the build.  The tests of src/windows/pdb.rs on dump_syms_regtest64, basic32-min, basic32 (a PDB file, for basic32 in a
cabinet) and mozwer (a PE file without PDB) are repeated.  This script decodes the files (MSF streams, procedures and public symbols, line
tables; exports and exception table), writes down what the `symbolic` crate reports of them, and lean/Verif/Compare.lean runs
`ObjectInfo::from_object` and the printer of the model on that.

What is compared: every line of the expected file but the STACK records (their text is an input of the model).  Three exceptions:
* Names of functions whose type is known are taken from the expected file (the script does not read types).
* A public name that starts with `?` is not demangled here; of its record only the name may differ.
* The last PUBLIC record is called `<unknown in X.dll>` in the expected files of PDB files; src/object_info.rs:156-160 passes the name of the PDB
  file.  The Rust tests do not compare names of PUBLIC records.
"""
import os, struct, subprocess, sys, tempfile, zlib

DATA = '/repo/test_data/windows/'
HERE = os.path.dirname(os.path.abspath(__file__))
LEAN = os.path.join(HERE, '..', 'lean')


def u32(b, o): return struct.unpack_from('<I', b, o)[0]
def u16(b, o): return struct.unpack_from('<H', b, o)[0]
def cstr(b, o): return b[o:b.index(b'\0', o)]


def cabinet(d):
    """The only file of a cabinet compressed with MSZIP."""
    off, nblk, typ = struct.unpack_from('<IHH', d, 36)
    assert d[:4] == b'MSCF' and typ & 15 == 1
    out, p = b'', off
    for _ in range(nblk):
        _, cb, ub = struct.unpack_from('<IHH', d, p)
        z = zlib.decompressobj(-15, zdict=out[-32768:])
        block = z.decompress(d[p + 10:p + 8 + cb])
        assert d[p + 8:p + 10] == b'CK' and len(block) == ub
        out, p = out + block, p + 8 + cb
    return out


class Pe:
    def __init__(self, d):
        self.d, n = d, u32(d, 0x3c)
        self.mach, self.nsec, self.time = struct.unpack_from('<HHI', d, n + 4)
        opt = n + 24
        self.plus = u16(d, opt) == 0x20b
        self.image_size = u32(d, opt + 56)
        self.dirs = [struct.unpack_from('<II', d, opt + (112 if self.plus else 96) + 8 * i) for i in range(16)]
        sec = opt + u16(d, n + 20)
        self.secs = [struct.unpack_from('<IIII', d, sec + 40 * i + 8) for i in range(self.nsec)]

    def off(self, rva):
        for vs, va, rs, ro in self.secs:
            if va <= rva < va + max(vs, rs): return rva - va + ro

    def code_id(self): return '%x%x' % (self.time, self.image_size)

    def exceptions(self):
        va, size = self.dirs[3]
        o = self.off(va)
        return [struct.unpack_from('<II', self.d, o + 12 * i) for i in range(size // 12)]

    def exports(self):
        va, _ = self.dirs[0]
        o = self.off(va)
        nf, nn, f, n, od = struct.unpack_from('<5I', self.d, o + 20)
        f, n, od = self.off(f), self.off(n), self.off(od)
        return [(u32(self.d, f + 4 * u16(self.d, od + 2 * i)), cstr(self.d, self.off(u32(self.d, n + 4 * i))).decode()) for i in range(nn)]

    def debug_id(self):
        """From the CodeView record."""
        va, size = self.dirs[6]
        for i in range(size // 28):
            e = self.off(va) + 28 * i
            if u32(self.d, e + 12) == 2:
                o = u32(self.d, e + 24)
                return breakpad(self.d[o + 4:o + 20], u32(self.d, o + 20)), cstr(self.d, o + 24).decode()


def breakpad(guid, age):
    a, b, c = struct.unpack_from('<IHH', guid, 0)
    return '%08X%04X%04X%s%x' % (a, b, c, guid[8:].hex().upper(), age)


class Pdb:
    def __init__(self, d):
        assert d[:16] == b'Microsoft C/C++ '
        self.d, self.bs = d, u32(d, 32)
        dirsize, bm = u32(d, 44), u32(d, 52)
        blocks = [u32(d, bm * self.bs + 4 * i) for i in range(-(-dirsize // self.bs))]
        dr = self.join(blocks, dirsize)
        n = u32(dr, 0)
        p, self.streams = 4 + 4 * n, []
        for i in range(n):
            size = u32(dr, 4 + 4 * i)
            size = 0 if size == 0xffffffff else size
            k = -(-size // self.bs)
            self.streams.append((size, [u32(dr, p + 4 * j) for j in range(k)]))
            p += 4 * k
        dbi = self.stream(3)
        self.age, self.symrec = u32(dbi, 8), u16(dbi, 20)
        modsize, consize, mapsize, srcsize, tssize, _, dbgsize, ecsize = struct.unpack_from('<8I', dbi, 24)
        o, self.mods = 64, []
        while o < 64 + modsize:
            stream, symsize, c11, c13 = struct.unpack_from('<HIII', dbi, o + 34)[0], *struct.unpack_from('<3I', dbi, o + 36)
            e = dbi.index(b'\0', o + 64)
            e = dbi.index(b'\0', e + 1)
            self.mods.append((stream, symsize, c11, c13))
            o = (e + 4) & ~3
        od = 64 + modsize + consize + mapsize + srcsize + tssize + ecsize
        sh = self.stream(u16(dbi, od + 10))
        self.secs = [(u32(sh, i + 12), u32(sh, i + 36) & 0x20000000) for i in range(0, len(sh), 40)]
        info = self.stream(1)
        self.guid = info[12:28]
        n = u32(info, 28)
        buf, p = info[32:32 + n], 32 + n
        count = u32(info, p)
        p += 8
        for _ in range(2): p += 4 + 4 * u32(info, p)
        named = dict((cstr(buf, u32(info, p + 8 * i)), u32(info, p + 8 * i + 4)) for i in range(count))
        self.names = self.stream(named[b'/names'])[12:] if b'/names' in named else b''

    def join(self, blocks, size): return b''.join(self.d[b * self.bs:(b + 1) * self.bs] for b in blocks)[:size]
    def stream(self, i): return self.join(self.streams[i][1], self.streams[i][0])
    def debug_id(self): return breakpad(self.guid, self.age)
    def rva(self, seg, off): return self.secs[seg - 1][0] + off if 0 < seg <= len(self.secs) else None

    @staticmethod
    def records(b, o, end):
        while o + 4 <= end:
            n = u16(b, o)
            yield u16(b, o + 2), b[o + 4:o + 2 + n]
            o += 2 + n

    def publics(self):
        """Public symbols that are functions or lie in an executable section."""
        b = self.stream(self.symrec)
        for k, r in self.records(b, 0, len(b)):
            if k == 0x110e:
                flags, off, seg = struct.unpack_from('<IIH', r, 0)
                a = self.rva(seg, off)
                if a is not None and (flags & 2 or self.secs[seg - 1][1]): yield a, cstr(r, 10).decode()

    def procedures(self):
        """Address, size, whether the type is known, name and lines (address, size, line, file) of the procedures of all modules."""
        for stream, symsize, c11, c13 in self.mods:
            if stream == 0xffff: continue
            b = self.stream(stream)
            o, end, subs = symsize + c11, symsize + c11 + c13, []
            while o + 8 <= end:
                k, n = struct.unpack_from('<II', b, o)
                subs.append((k, b[o + 8:o + 8 + n]))
                o += 8 + ((n + 3) & ~3)
            files, tables = {}, []
            for k, x in subs:
                p = 0
                while k == 0xf4 and p + 6 <= len(x):
                    files[p] = cstr(self.names, u32(x, p)).decode('latin1')
                    p = (p + 6 + x[p + 4] + 3) & ~3
            for k, x in subs:
                if k != 0xf2: continue
                off, seg, _, size = struct.unpack_from('<IHHI', x, 0)
                p, rows = 12, []
                while p + 12 <= len(x):
                    f, n, bytes_ = struct.unpack_from('<III', x, p)
                    for i in range(n):
                        a, w = struct.unpack_from('<II', x, p + 12 + 8 * i)
                        if w & 0xffffff not in (0xfeefee, 0xf00f00): rows.append((a, w & 0xffffff, files[f]))
                    p += bytes_
                tables.append((seg, off, size, rows))
            for k, r in self.records(b, 4, symsize):
                if k not in (0x110f, 0x1110, 0x1146, 0x1147): continue
                size, ty, off, seg = u32(r, 12), u32(r, 24), u32(r, 28), u16(r, 32)
                a, lines = self.rva(seg, off), []
                if a is None: continue
                here = [t for t in tables if t[:2] == (seg, off)] or [t for t in tables if t[0] == seg and t[1] <= off < t[1] + t[2]]
                for _, start, total, rows in here[:1]:
                    for i, (o, line, f) in enumerate(rows):
                        after = rows[i + 1][0] if i + 1 < len(rows) else total
                        if off <= start + o < off + size and after != o: lines.append((self.rva(seg, start) + o, after - o, line, f))
                yield a, size, ty != 0, cstr(r, 35).decode(), sorted(lines, key=lambda l: l[0])


def fields(line):
    t = line.split(' ')
    multiple = t[1] == 'm'
    if multiple: t.pop(1)
    k = 4 if t[0] == 'FUNC' else 3
    return (t[0], multiple, t[1:k]), ' '.join(t[k:])


def run(name, out):
    pe_file = name + '.dll' if os.path.exists(DATA + name + '.dll') else name + '.exe'
    pe = Pe(open(DATA + pe_file, 'rb').read())
    want = [l for l in open(DATA + name + '.sym').read().split('\n') if not l.startswith('STACK')]
    with open(out, 'w') as o:
        put = lambda *x: o.write('\t'.join(map(str, x)) + '\n')
        if name == 'mozwer':
            debug_id, module = pe.debug_id()
            for b, e in pe.exceptions(): put('E', b, e)
            for a, n in pe.exports(): put('P', a, n)
        else:
            path = DATA + name + '.pdb'
            pdb = Pdb(open(path, 'rb').read() if os.path.exists(path) else cabinet(open(DATA + name + '.pd_', 'rb').read()))
            debug_id, module = pdb.debug_id(), name + '.pdb'
            known = {}
            for l in want:
                if l.startswith('FUNC'):
                    head, n = fields(l)
                    known[int(head[2][0], 16)] = n
            for a, size, typed, n, lines in pdb.procedures():
                put('F', a, size, known[a] if typed else n)
                for l in lines: put('L', *l)
            for a, n in pdb.publics(): put('P', a, n)
    kind = 'pe' if name == 'mozwer' else 'pdb'
    arch = 'x86_64' if pe.mach == 0x8664 else 'x86'
    args = ', '.join('"%s"' % x.replace("\\", "\\\\") for x in (out, kind, debug_id, arch, pe.code_id(), module, pe_file))
    r = subprocess.run(['lake', 'env', 'lean', '--stdin'], cwd=LEAN, input='import Verif.Compare\n#eval DumpSyms.Compare.run [%s]\n' % args,
                       capture_output=True, text=True)
    got = open(out + '.out').read().split('\n') if os.path.exists(out + '.out') else [r.stdout + r.stderr]
    wrong = names = last = 0
    if len(got) != len(want): wrong += 1
    for g, w in zip(got, want):
        if g == w: continue
        if g.split(' ')[0] in ('FUNC', 'PUBLIC') and w.split(' ')[0] in ('FUNC', 'PUBLIC'):
            (gh, gn), (wh, wn) = fields(g), fields(w)
            if gh == wh and gn.startswith('?'):
                names += 1
                continue
            if gh == wh and gn == '<unknown in %s>' % module.split('\\')[-1] and wn == '<unknown in %s>' % pe_file:
                last += 1
                continue
        wrong += 1
        if wrong < 5: print('   model:    %s\n   expected: %s' % (g, w))
    print('%-20s %6d lines, %d differ (apart from %d names not demangled, %d names of the last record)' % (name, len(want), wrong, names, last))
    return wrong == 0


if __name__ == '__main__':
    with tempfile.TemporaryDirectory() as d:
        ok = [run(n, os.path.join(d, n + '.in')) for n in ('dump_syms_regtest64', 'basic32-min', 'basic32', 'mozwer')]
    sys.exit(0 if all(ok) else 1)
