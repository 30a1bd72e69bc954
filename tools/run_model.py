#!/usr/bin/env python3
"""Runs the Lean model on the test images of /repo and compares with tests/image_tests.rs.

This is a test of the model's fidelity, not a proof.  Lake's C output for Verif/Model is compiled and
linked with a small driver; images are decoded to grey here (PNG, baseline JPEG), as the `image` crate
would do.  Usage: run_model.py [name ...], after `lake build` in /verif/lean."""
import math, os, re, struct, subprocess, sys, time, zlib

LEAN = '/verif/lean'
WORK = '/tmp/run_model'
IMAGES = '/repo/tests/images'

DRIVER = '''
import Verif.Model.Default
open Verif

def readImage (path : String) : IO GrayImage := do
  let b ← IO.FS.readBinFile path
  let num (i : Nat) : Nat := b[i]!.toNat + 256 * b[i+1]!.toNat + 65536 * b[i+2]!.toNat
  let px := (b.toList.drop 8).map fun v => BitVec.ofNat 8 v.toNat
  return ⟨num 0, num 4, px⟩

def showLevel : ECLevel → String
  | .low => "L" | .medium => "M" | .quartile => "Q" | .high => "H"

def main (args : List String) : IO Unit := do
  let img ← readImage args[0]!
  match defaultDecoderWithInfo (σ := Unit) (id : GrayImage → GrayImage) with
  | .panic => IO.println "PANIC in build"
  | .ret d =>
    match d.decode img () with
    | .panic => IO.println "PANIC"
    | .ret (results, _) =>
      for r in results do
        match r with
        | .error e => IO.println s!"ERR {e.msg}"
        | .ok (s, i) => IO.println s!"OK {i.version} {showLevel i.ecLevel} {i.totalData} {i.errors} {repr (String.ofList s)}"
'''

def png(b):
    pos, idat, plte, trns = 8, b'', None, None
    while pos < len(b):
        n, = struct.unpack('>I', b[pos:pos+4]); t = b[pos+4:pos+8]; d = b[pos+8:pos+8+n]; pos += 12 + n
        if t == b'IHDR': w, h, depth, ct, _, _, il = struct.unpack('>IIBBBBB', d)
        elif t == b'IDAT': idat += d
        elif t == b'PLTE': plte = d
    assert il == 0
    ch = {0: 1, 2: 3, 3: 1, 4: 2, 6: 4}[ct]
    bpp = max(1, ch * depth // 8); stride = (w * ch * depth + 7) // 8
    raw = zlib.decompress(idat); prev = bytearray(stride); out = bytearray()
    for y in range(h):
        f = raw[y*(stride+1)]; line = bytearray(raw[y*(stride+1)+1:(y+1)*(stride+1)])
        for i in range(stride):
            a = line[i-bpp] if i >= bpp else 0; u = prev[i]; c = prev[i-bpp] if i >= bpp else 0
            if f == 1: line[i] = (line[i] + a) & 255
            elif f == 2: line[i] = (line[i] + u) & 255
            elif f == 3: line[i] = (line[i] + (a + u) // 2) & 255
            elif f == 4:
                p = a + u - c; pa, pb, pc = abs(p-a), abs(p-u), abs(p-c)
                line[i] = (line[i] + (a if pa <= pb and pa <= pc else u if pb <= pc else c)) & 255
        prev = line
        for x in range(w):
            if depth < 8:
                v = (line[x*depth//8] >> (8 - depth - (x*depth) % 8)) & ((1 << depth) - 1)
                if ct == 0: v = v * 255 // ((1 << depth) - 1)
                px = (v,)
            else:
                assert depth == 8
                px = tuple(line[x*ch:x*ch+ch])
            if ct == 3: px = tuple(plte[3*px[0]:3*px[0]+3])
            out.append(luma(px))
    return w, h, bytes(out)

def luma(px):
    if len(px) < 3: return px[0]
    return (2126*px[0] + 7152*px[1] + 722*px[2]) // 10000

ZZ = [0,1,8,16,9,2,3,10,17,24,32,25,18,11,4,5,12,19,26,33,40,48,41,34,27,20,13,6,7,14,21,28,35,42,49,56,57,50,
      43,36,29,22,15,23,30,37,44,51,58,59,52,45,38,31,39,46,53,60,61,54,47,55,62,63]
COS = [[math.cos((2*x+1)*u*math.pi/16) * (math.sqrt(.125) if u == 0 else .5) for u in range(8)] for x in range(8)]

def jpeg(b):
    qt, ht, i, ri = {}, {}, 2, 0
    while True:
        m = b[i+1]; l, = struct.unpack('>H', b[i+2:i+4]); d = b[i+4:i+2+l]; i += 2 + l
        if m == 0xdb:
            k = 0
            while k < len(d):
                assert d[k] >> 4 == 0
                qt[d[k] & 15] = list(d[k+1:k+65]); k += 65
        elif m == 0xc4:
            k = 0
            while k < len(d):
                cnt = d[k+1:k+17]; tab = {}; code = 0; p = k + 17
                for n in range(16):
                    for _ in range(cnt[n]): tab[(n+1, code)] = d[p]; p += 1; code += 1
                    code <<= 1
                ht[d[k]] = tab; k = p
        elif m == 0xc0:
            _, h, w, n = struct.unpack('>BHHB', d[:6])
            comps = [dict(id=d[6+3*k], h=d[7+3*k] >> 4, v=d[7+3*k] & 15, q=d[8+3*k]) for k in range(n)]
        elif m == 0xdd: ri, = struct.unpack('>H', d)
        elif m == 0xda:
            for k in range(d[0]):
                for c in comps:
                    if c['id'] == d[1+2*k]: c['dc'], c['ac'] = ht[d[2+2*k] >> 4], ht[0x10 | (d[2+2*k] & 15)]
            break
    data = b[i:]; pos = 0; acc = 0; nb = 0
    def bit():
        nonlocal pos, acc, nb
        if nb == 0:
            acc = data[pos]; pos += 1
            if acc == 0xff: assert data[pos] == 0; pos += 1
            nb = 8
        nb -= 1
        return (acc >> nb) & 1
    def huff(t):
        c = 0
        for n in range(1, 17):
            c = c * 2 + bit()
            if (n, c) in t: return t[(n, c)]
        raise ValueError
    def recv(n):
        v = 0
        for _ in range(n): v = v * 2 + bit()
        return v if n == 0 or v >> (n-1) else v - (1 << n) + 1
    hm = max(c['h'] for c in comps); vm = max(c['v'] for c in comps)
    mx = -(-w // (8*hm)); my = -(-h // (8*vm))
    for c in comps: c['w'] = mx*c['h']*8; c['px'] = [bytearray(c['w']) for _ in range(my*c['v']*8)]; c['pred'] = 0
    for mcu in range(mx*my):
        if ri and mcu and mcu % ri == 0:
            nb = 0; pos += 2
            for c in comps: c['pred'] = 0
        for c in comps:
            q = qt[c['q']]
            for v in range(c['v']):
                for hh in range(c['h']):
                    co = [0]*64
                    c['pred'] += recv(huff(c['dc'])); co[0] = c['pred'] * q[0]
                    k = 1
                    while k < 64:
                        rs = huff(c['ac'])
                        if rs == 0: break
                        k += rs >> 4
                        if rs & 15: co[ZZ[k]] = recv(rs & 15) * q[k]
                        k += 1
                    t = [[sum(COS[x][u]*co[8*y+u] for u in range(8)) for x in range(8)] for y in range(8)]
                    x0 = ((mcu % mx)*c['h'] + hh)*8; y0 = ((mcu // mx)*c['v'] + v)*8
                    for x in range(8):
                        for y in range(8):
                            s = sum(COS[y][u]*t[u][x] for u in range(8))
                            c['px'][y0+y][x0+x] = max(0, min(255, round(s + 128)))
    def chroma(c, x, y):  # triangle filter for 2x2 subsampled planes
        if c['h'] == hm: return c['px'][y][x]
        cw = -(-w*c['h'] // hm); chh = -(-h*c['v'] // vm)
        xi, yi = x // 2, y // 2
        xn = min(cw-1, max(0, xi + (1 if x & 1 else -1))); yn = min(chh-1, max(0, yi + (1 if y & 1 else -1)))
        p = c['px']
        return (9*p[yi][xi] + 3*p[yi][xn] + 3*p[yn][xi] + p[yn][xn] + 8) // 16
    out = bytearray(); clamp = lambda v: max(0, min(255, round(v)))
    for y in range(h):
        for x in range(w):
            Y = comps[0]['px'][y][x]
            if len(comps) == 1: out.append(Y); continue
            cb = chroma(comps[1], x, y) - 128; cr = chroma(comps[2], x, y) - 128
            out.append(luma((clamp(Y + 1.402*cr), clamp(Y - .344136*cb - .714136*cr), clamp(Y + 1.772*cb))))
    return w, h, bytes(out)

def expected():
    """The calls of test_image and test_image_with_info that are not commented out."""
    src = re.sub(r'(?m)^\s*//.*$', '', open('/repo/tests/image_tests.rs').read())
    lits = [(m.start(), m.group(1)) for m in re.finditer(r'"((?:[^"\\]|\\.)*)"', src)]
    long_text = None; res = {}
    unesc = lambda s: s.replace("\\'", "'").replace('\\n', '\n')
    cur = None
    for p, s in lits:
        if s.startswith('tests/images/'): cur = s[len('tests/images/'):]; res.setdefault(cur, []).append([])
        elif s.startswith('Version 40'): long_text = unesc(s)
        elif cur: res[cur][-1].append(unesc(s))
    return {k: (v[0] or [long_text]) for k, v in res.items()}

def expected_info():
    """Version, level, total_data and errors in the calls of test_image_with_info."""
    src = open('/repo/tests/image_tests.rs').read(); res = {}
    for call in re.findall(r'test_image_with_info\(\s*"tests/images/([^"]*)"(.*?)\n    \);', src, re.S):
        res[call[0]] = [(v, l[0], t, e) for v, l, t, e in re.findall(
            r'version: (\d+),\s*ec_level: ECLevel::(\w+),\s*total_data: (\d+),\s*errors: (\d+)', call[1])]
    return res

def build():
    os.makedirs(WORK, exist_ok=True)
    open(f'{WORK}/Main.lean', 'w').write(DRIVER)
    subprocess.run(['lake', '-d', LEAN, 'env', 'lean', f'--root={WORK}', f'{WORK}/Main.lean', '-c', f'{WORK}/Main.c'], check=True)
    ir = f'{LEAN}/.lake/build/ir/Verif/Model'
    cs = [f'{ir}/{f}' for f in os.listdir(ir) if f.endswith('.c')]
    subprocess.run(['leanc', '-O3', '-o', f'{WORK}/model', f'{WORK}/Main.c'] + cs, check=True)

def main():
    build()
    exp = expected(); info = expected_info(); bad = 0
    for name, want in exp.items():
        if sys.argv[1:] and not any(a in name for a in sys.argv[1:]): continue
        b = open(f'{IMAGES}/{name}', 'rb').read()
        w, h, g = png(b) if name.endswith('png') else jpeg(b)
        open(f'{WORK}/img.bin', 'wb').write(struct.pack('<II', w, h) + g)
        t = time.time()
        out = subprocess.run([f'{WORK}/model', f'{WORK}/img.bin'], capture_output=True, text=True)
        got = [l for l in out.stdout.splitlines()]
        texts = [l.split(' ', 5)[5] for l in got if l.startswith('OK')]
        ok = len(got) == len(want) and [eval(s) for s in texts] == want
        if name in info: ok = ok and [tuple(l.split(' ')[1:5]) for l in got] == info[name]
        bad += not ok
        print('pass' if ok else 'FAIL', name, f'{time.time()-t:.1f}s', [l[:60] for l in got], out.stderr[:200], flush=True)
    print('failures:', bad)

if __name__ == "__main__": main()
