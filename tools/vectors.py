#!/usr/bin/env python3
"""Writes lean/Verif/Check/*.lean from the known-answer tests of the repository.

The generated files run the *model* on the inputs of the unit tests in /repo and compare with the outputs the unit
tests expect. They are tests of the fidelity of the model, not proofs.
"""
import re, sys
REPO = sys.argv[1] if len(sys.argv) > 1 else '/repo'
OUT = '/verif/lean/Verif/Check'

def read(p):
    return open(f'{REPO}/src/{p}').read()

def body(src, fn):
    """The text of `fn name() { … }`."""
    i = src.index(f'fn {fn}()')
    j = src.index('\n}', i) if re.search(r'^fn ' + fn, src, re.M) else src.index('\n    }\n', i)
    return src[i:j]

def strip(s):
    return re.sub(r'//[^\n"]*\n', '\n', s)

def lit(b):
    return '"' + ''.join('%02x' % x for x in b) + '"'

def nums(s):
    return [int(re.sub(r'[ui](8|16|32|64|size)$', '', x.replace('_', '')), 0) for x in re.findall(r'0x[0-9a-fA-F_]+(?:u8|u32|u64)?|\d[\d_]*(?:u8|u32|u64|usize)?', s)]

def be(ws, n):
    return b''.join(w.to_bytes(n, 'big') for w in ws)

HEAD = '''import {imp}

/-! Known answers: the model of {what} is run on the inputs of the unit tests in {files}
and compared with the outputs those tests expect. These are tests of the model, not proofs. Written by tools/vectors.py. -/

namespace Verif.Check
open Verif.Model

'''

def write(name, imps, what, files, text):
    head = HEAD.replace('import {imp}', '\n'.join('import ' + i for i in imps)).replace('{what}', what).replace('{files}', files)
    open(f'{OUT}/{name}.lean', 'w').write(head + text + '\nend Verif.Check\n')

def pairs(b):
    return [(h, eval('b' + m)) for h, m in re.findall(r'\(\s*"([0-9a-fA-F]+)",\s*("(?:[^"\\]|\\.)*"),?\s*\)', b)]

# ---------------------------------------------------------------- hashes
out = []
def cases(l):
    return '[\n  ' + ',\n  '.join(f'({lit(m)}, "{h.lower()}")' for h, m in l) + ']'
b = body(read('md5/md5.rs'), 'md5')
out.append(f'#guard hashes MD5.digest false MD5.new {cases(pairs(b))}\n')
b = body(read('sm3/sm3.rs'), 'sm3')
out.append(f'#guard hashes SM3.digest true SM3.new {cases(pairs(b))}\n')
s = read('sha/sha/tests.rs')
for fn, new in [('sha1', 'newSha1'), ('sha256', 'newSha256'), ('sha224', 'newSha224'), ('sha512', 'newSha512'), ('sha512t384', 'newSha384'),
                ('sha512t224', 'newSha512t224'), ('sha512t256', 'newSha512t256')]:
    p = pairs(body(s, fn))
    assert len(p) > 20, fn
    out.append(f'#guard hashes Facade.sha true Facade.{new} {cases(p)}\n')
write('Hash', ['Verif.Check.Run', 'Verif.Model.MD5', 'Verif.Model.SM3', 'Verif.Model.Facade'], 'MD5, SM3 and SHA',
      'src/md5/md5.rs, src/sm3/sm3.rs and src/sha/sha/tests.rs', '\n'.join(out))

out = []
s = read('sha3/sha3/tests.rs')
for fn, new in [('sha224', 'newSHA3_224'), ('sha256', 'newSHA3_256'), ('sha384', 'newSHA3_384'), ('sha512', 'newSHA3_512')]:
    p = re.findall(r'\("([0-9A-F]+)", "([01]*)"\)', body(s, fn))
    p = '[\n  ' + ',\n  '.join(f'("{m}", "{h.lower()}")' for h, m in p) + ']'
    out.append(f'#guard bitHashes Facade.{new} {p}\n')
for fn, sec in [('shake128', 128), ('shake256', 256)]:
    if f'fn {fn}()' in s:
        p = re.findall(r'\("([0-9A-F]+)",\s*("[^"]*")\.as_bytes\(\)\.to_vec\(\), (\d+)\)', body(s, fn))
        p = '[\n  ' + ',\n  '.join(f'({n}, {lit(eval("b" + m))}, "{h.lower()}")' for h, m, n in p) + ']'
        out.append(f'#guard shakes {sec} {p}\n')
write('SHA3', ['Verif.Check.Run', 'Verif.Model.Facade'], 'SHA-3 and SHAKE', 'src/sha3/sha3/tests.rs', '\n'.join(out))

out = []
s = read('hmac/hmac/tests.rs')
for fn, d, new in [('hmac_sha1', 'Facade.sha', 'Facade.newSha1'), ('hmac_sha256', 'Facade.sha', 'Facade.newSha256'), ('hmac_sha224', 'Facade.sha', 'Facade.newSha224'),
                   ('hmac_sha384', 'Facade.sha', 'Facade.newSha384'), ('hmac_sha512', 'Facade.sha', 'Facade.newSha512'), ('hmac_md5', 'MD5.digest', 'MD5.new')]:
    p = []
    for h, m, k in re.findall(r'\("([0-9a-f]+)",\s*((?:"(?:[^"\\]|\\.)*"(?:\.as_bytes\(\)\.to_vec\(\))?)|vec!\[[^\]]*\]),\s*vec!\[([^\]]*)\]', strip(body(s, fn))):
        msg = eval('b' + m.split('.as_bytes')[0]) if m.startswith('"') else bytes(nums(m))
        p.append(f'({lit(bytes(nums(k)))}, {lit(msg)}, "{h}")')
    out.append(f'#guard hmacs {d} {new} [\n  ' + ',\n  '.join(p) + ']\n')
s = read('cmac/cmac_test.rs')
for fn, alg in [('cmac_tdes', 'tdes'), ('cmac_aes', 'aes')]:
    b = body(s, fn)
    b = b[:b.index('let (mut tgt_mac')]
    for grp in re.split(r'\n        \(\n', b)[1:]:
        key, rest = grp.split('vec![\n', 1)
        ks = nums(re.sub(r'vec!', '', key))
        kb = be(ks, 8 if alg == 'tdes' else 4)
        p = []
        for m, t in re.findall(r'\(vec!\[([^\]]*)\],\s*vec!\[([^\]]*)\]\)', rest):
            p.append(f'({lit(be(nums(m), 4))}, {lit(be(nums(t), 4))})')
        out.append(f'#guard cmacs ({alg} {lit(kb)}) [\n  ' + ',\n  '.join(p) + ']\n')
write('MAC', ['Verif.Check.Run', 'Verif.Model.MD5', 'Verif.Model.Facade', 'Verif.Model.HMAC', 'Verif.Model.CMAC'], 'HMAC and CMAC',
      'src/hmac/hmac/tests.rs and src/cmac/cmac_test.rs', '\n'.join(out))

# ---------------------------------------------------------------- block ciphers
out = []
b = strip(body(read('des/des.rs'), 'des'))
p = [f'({lit(bytes(nums(k)))}, {lit(bytes(nums(m)))}, {lit(bytes(nums(c)))})' for k, m, c in re.findall(r'\(\[([^\]]*)\],\s*\[([^\]]*)\],\s*\[([^\]]*)\],?\)', b)]
out.append('#guard blocks des [\n  ' + ',\n  '.join(p) + ']\n')
b = body(read('des/tdes.rs'), 'tdes')
for k, m, c in re.findall(r'\(\s*\(([^)]*)\),\s*vec!\[([^\]]*)\],\s*vec!\[([^\]]*)\],\s*\)', b):
    p = [f'({lit(be(nums(k), 8))}, {lit(be([x], 8))}, {lit(be([y], 8))})' for x, y in zip(nums(m), nums(c))]
    out.append('#guard blocks tdes [\n  ' + ',\n  '.join(p) + ']\n')
b = strip(body(read('aes/aes.rs'), 'aes'))
p = [f'({lit(bytes(nums(k)))}, {lit(bytes(nums(m)))}, {lit(bytes(nums(c)))})' for k, m, c in re.findall(r'vec!\[([^\]]*)\],\s*vec!\[([^\]]*)\],\s*vec!\[([^\]]*)\],\s*\)', b)]
out.append('#guard blocks aes [\n  ' + ',\n  '.join(p) + ']\n')
out.append('#guard (AES.new (hex "0000010203")).isOk = false\n')
b = body(read('sm4/sm4_test.rs'), 'sm4')
p = []
for m, k, c, n in re.findall(r'\[([^\]]*)\],\s*\[([^\]]*)\],\s*\[([^\]]*)\],\s*([\d_]+)usize', b):
    if int(n.replace('_', '')) == 1:
        p.append(f'({lit(bytes(nums(k)))}, {lit(bytes(nums(m)))}, {lit(bytes(nums(c)))})')
out.append('#guard blocks sm4 [\n  ' + ',\n  '.join(p) + ']\n')

s = read('cipher_mode/cipher_mode_test.rs')
def md(fn):
    b = body(s, fn)
    b = b[:b.index('let (mut buf')]
    return re.findall(r'\(\s*(\([^)]*\)|vec!\[[^\]]*\]),\s*vec!\[([^\]]*)\],\s*vec!\[([^\]]*)\],?\s*\)', b)
for k, m, c in md('ecb_aes'):
    out.append(f'#guard ecb (aes {lit(be(nums(k.replace("vec!", "")), 4))}) {lit(be(nums(m), 4))} {lit(be(nums(c), 4))}\n')
for k, m, c in md('ecb_tdes'):
    out.append(f'#guard ecb (tdes {lit(be(nums(k), 8))}) {lit(be(nums(m), 8))} {lit(be(nums(c), 8))}\n')
for fn, f in [('cbc_test', 'cbc'), ('cfb_test', 'cfb'), ('ofb_test', 'ofb'), ('ctr_test', 'ctr')]:
    for k, m, c in md(fn):
        ks = nums(k)
        arg = f'{ks[4]} ' if fn == 'cfb_test' else ''
        out.append(f'#guard {f} (tdes {lit(be(ks[:3], 8))}) {arg}{lit(be([ks[3]], 8))} {lit(be(nums(m), 4))} {lit(be(nums(c), 4))}\n')
write('Cipher', ['Verif.Check.Run', 'Verif.Model.ECB', 'Verif.Model.CBC', 'Verif.Model.CFB', 'Verif.Model.OFB', 'Verif.Model.CTR'],
      'DES, TDES, AES, SM4 and the modes of operation',
      'src/des/des.rs, src/des/tdes.rs, src/aes/aes.rs, src/sm4/sm4_test.rs (without the million-fold\niteration) and src/cipher_mode/cipher_mode_test.rs', '\n'.join(out))

# ---------------------------------------------------------------- ZUC
out = []
s = read('zuc/zuc_test.rs')
b = body(s, 'zuc_core')
for k, v, z in re.findall(r'\[([^\]]*)\],\s*\[([^\]]*)\],\s*\[([^\]]*)\],\s*\)', b):
    out.append(f'#guard zucWords {lit(bytes(nums(k)))} {lit(bytes(nums(v)))} {nums(z)}\n')
b = body(s, 'zuc_cipher')
for m in re.finditer(r'Cases \{\s*ck: \[([^\]]*)\],\s*count: (\w+),\s*bearer: (\w+),\s*direction: (\d),\s*bits_len: (\w+),\s*ibs: vec!\[([^\]]*)\],\s*obs: vec!\[([^\]]*)\]', b):
    ck, cnt, br, dr, bl, ib, ob = m.groups()
    out.append(f'#guard zucCipher {lit(bytes(nums(ck)))} {int(cnt,0)} {int(br,0)} {"true" if dr == "1" else "false"} {int(bl,0)}\n  {lit(be(nums(ib),4))}\n  {lit(be(nums(ob),4))}\n')
b = strip(body(s, 'zuc_mac'))
for m in re.finditer(r'Cases \{\s*ik: \[([^\]]*)\],\s*count: (\w+),\s*bearer: (\w+),\s*direction: (\d),\s*msg: vec!\[([^\]]*)\],\s*mac: (\w+)', b):
    ck, cnt, br, dr, msg, mac = m.groups()
    out.append(f'#guard zucMac {lit(bytes(nums(ck)))} {int(cnt,0)} {int(br,0)} {"true" if dr == "1" else "false"}\n  {lit(be(nums(msg),4))}\n  {lit(be([int(mac,0)],4))}\n')
write('ZUC', ['Verif.Check.Run', 'Verif.Model.ZUC'], 'ZUC, its cipher and its MAC', 'src/zuc/zuc_test.rs', '\n'.join(out))

# ---------------------------------------------------------------- curves
out = []
s = read('elliptic/elliptic_test.rs')
t224 = re.findall(r'\(\s*"(\d+)",\s*"(0x[0-9a-f]+)",\s*"(0x[0-9a-f]+)",\s*\)', s)
t256 = re.findall(r'\(\s*' + r',\s*'.join(['"(0x[0-9a-f]+)"'] * 5) + r',\s*\)', s)
sel = t224[:3] + t224[20:32] + t224[-3:]
for k, x, y in sel:
    out.append(f'#guard base224 {k} {x} {y}\n')
for k, x, y in [t224[i] for i in (21, 25, 30, 51)]:
    out.append(f'#guard base256 {k}\n')
out.append('#guard base256 (2 ^ 500)\n')
for k, x, y in [t224[i] for i in (0, 1, 22, 51)]:
    out.append(f'#guard same256 {k} {x} {y}\n')
for k, x, y, x2, y2 in t256:
    out.append(f'#guard mult256 {k} {x} {y} {x2} {y2}\n')
out.append('#guard P224.curve.isOnCurve P224.new (some Elliptic.p224.gx) (some Elliptic.p224.gy)\n')
out.append('#guard P224.curve.isOnCurve P224.new (some 1) (some 1) = false\n')
out.append('#guard infinity P256.curve P256.new\n\n#guard infinity P224.curve P224.new\n')
out.append('#guard combined P256.curve P256.new\n')
write('Curve', ['Verif.Check.Run', 'Verif.Model.P224', 'Verif.Model.P256'], 'the curves',
      'src/elliptic/elliptic_test.rs (some of the 52 scalars)', '\n'.join(out))

# ---------------------------------------------------------------- RSA (public operations)
out = []
s = read('rsa/oaep_test.rs')
for blk in s.split('TestEncryptOAEPData {')[2:]:
    n = re.search(r'modulus: "(0x[0-9a-f]+)"', blk).group(1)
    e = int(re.search(r'e: (\d+)', blk).group(1))
    for m in re.finditer(r'in_msg: vec!\[([^\]]*)\],\s*seed: vec!\[([^\]]*)\],\s*out_msg: vec!\[([^\]]*)\]', blk):
        a, sd, o = [lit(bytes(nums(x))) for x in m.groups()]
        out.append(f'#guard oaep {n} {e}\n  {a}\n  {sd}\n  {o}\n')
s = read('rsa/pkcs1_test.rs')
n = re.search(r'let n = BigInt::from_str\("(\d+)"', s).group(1)
b = body(s, 'pkcs1_sign')
m = re.search(r'\("((?:[^"\\]|\\.)*)", vec!\[([^\]]*)\]', b)
out.append(f'#guard pkcs1Verify {n} 65537\n  {lit(eval("b" + chr(34) + m.group(1) + chr(34)))}\n  {lit(bytes(nums(m.group(2))))}\n')
s = read('rsa/pss_test.rs')
b = body(s, 'emsa_pss_openssl')
m = re.search(r'let sig = vec!\[([^\]]*)\]', b)
out.append(f'#guard pssVerify {n} 65537\n  {lit(b"testing")}\n  {lit(bytes(nums(m.group(1))))}\n')
b = body(s, 'emsa_pss')
v = [lit(bytes(nums(re.search(r'let ' + x + r' = vec!\[([^\]]*)\]', b).group(1)))) for x in ('msg', 'salt', 'expected')]
out.append(f'#guard pssEncode\n  {v[0]}\n  {v[1]}\n  {v[2]}\n')
write('RSA', ['Verif.Check.Run', 'Verif.Model.OAEP', 'Verif.Model.PSS', 'Verif.Model.PKCS1'], 'the public-key operations of RSA',
      'src/rsa/oaep_test.rs, src/rsa/pkcs1_test.rs and src/rsa/pss_test.rs', '\n'.join(out))

# ---------------------------------------------------------------- private keys
out = []
s = read('rsa/rsa_test.rs')
def key(b):
    n, d = [re.search(r'let ' + x + r' = BigInt::from_str\("(\d+)"', b).group(1) for x in 'nd']
    e = re.search(r'let e = BigInt::from\((\d+)u32', b).group(1)
    return n, e, d, re.findall(r'primes\.push\(BigInt::from_str\("(\d+)"', b)
for f in ('rsa_gnu_tls_key', 'rsa_keygen_2048'):
    n, e, d, ps = key(body(s, f))
    out.append(f'#guard givenKey {n} {e} {d} [{", ".join(ps)}]\n')
small = key(body(s, 'rsa_gnu_tls_key'))[3]
n, e, d, ps = key(read('rsa/pkcs1_test.rs'))
def bits(l):
    x = 1
    for p in l: x *= int(p)
    return x.bit_length()
for l in (small, ps, small[:1] + ps, small + ps):
    out.append(f'#guard keygen {bits(l)} [{", ".join(l)}]\n')
out.append(f'#guard keygen {bits(small) + 1} [{", ".join(small)}] = false\n')
P = f'{n} {e} {d} [{", ".join(ps)}]'
b = body(read('rsa/pkcs1_test.rs'), 'pcks1_encrypt_decrypt')
for c, m in re.findall(r'\(vec!\[([^\]]*)\], "((?:[^"\\]|\\.)*)"\)', b):
    out.append(f'#guard pkcs1Decrypt {P}\n  {lit(eval("b" + chr(34) + m + chr(34)))}\n')
b = body(read('rsa/pkcs1_test.rs'), 'pkcs1_sign')
m = re.search(r'\("((?:[^"\\]|\\.)*)", vec!\[([^\]]*)\]', b)
out.append(f'#guard pkcs1Sign {P}\n  {lit(eval("b" + chr(34) + m.group(1) + chr(34)))}\n  {lit(bytes(nums(m.group(2))))}\n')
n, e, d, ps = key(read('rsa/pss_test.rs'))
out.append(f'#guard pssSign {n} {e} {d} [{", ".join(ps)}] {lit(b"testing")}\n')
s = read('rsa/oaep_test.rs')
for blk in s.split('TestEncryptOAEPData {')[2:]:
    n = re.search(r'modulus: "(0x[0-9a-f]+)"', blk).group(1)
    d = re.search(r'd: "(0x[0-9a-f]+)"', blk).group(1)
    e = int(re.search(r'e: (\d+)', blk).group(1))
    for m in re.finditer(r'in_msg: vec!\[([^\]]*)\],\s*seed: vec!\[([^\]]*)\],\s*out_msg: vec!\[([^\]]*)\]', blk):
        a, sd, o = [lit(bytes(nums(x))) for x in m.groups()]
        out.append(f'#guard oaepDecrypt {n} {e} {d}\n  {a}\n  {o}\n')
b = body(read('dsa/dsa_test.rs'), 'dsa_sign_verify')
v = re.findall(r'from_str\("(0x[0-9A-Fa-f]+)"', b)
p, q, g, y, x, p2, q2, g2, y2 = v
out.append(f'#guard dsaSign {p} {q} {g} {y} {x} {lit(b"testing")}\n')
out.append(f'#guard dsaRefuse {p2} {q2} {g2} {y2} 2 4 {lit(b"testing")}\n')
out.append(f'#guard dsaGenerate 1024 160 {q} {lit(b"testing")}\n')
for c in ('P224.curve P224.new', 'P256.curve P256.new', 'Elliptic.generic Elliptic.p384', 'Elliptic.generic Elliptic.p521'):
    out.append(f'#guard ecdsaSign {c} {lit(b"testing")}\n')
write('Private', ['Verif.Check.RunPrivate'], 'private keys',
      'src/rsa/*_test.rs, src/dsa/dsa_test.rs and src/ecdsa/ecdsa_test.rs', '\n'.join(out))
