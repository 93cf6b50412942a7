#!/usr/bin/env python3
"""Compare the literal parts of the Lean model (lean/Verif/Model) with /repo, as text.

Supporting evidence for the fidelity of the model, not a proof: constant tables, initial values, the calls of the unrolled
transform() functions and the straight-line mixing functions are extracted from both sides independently and compared item by
item. Usage: python3 tools/transcription.py [/repo]
"""
import os
import re
import sys

REPO = sys.argv[1] if len(sys.argv) > 1 else '/repo'
INC = REPO + '/include/boost/hash2/'
MODEL = os.path.join(os.path.dirname(os.path.abspath(__file__)), '..', 'lean', 'Verif', 'Model')

bad = 0
total = 0


def cpp(f):
    t = open(INC + f).read()
    t = re.sub(r'/\*.*?\*/', ' ', t, flags=re.S)
    return re.sub(r'//[^\n]*', '', t)


def lean(f):
    t = open(os.path.join(MODEL, f)).read()
    return re.sub(r'/-.*?-/', ' ', t, flags=re.S)


def num(s):
    s = s.strip().lower()
    s = re.sub(r'#\d+$', '', s)
    if s.startswith('0x'):
        return int(re.sub(r'[ul]+$', '', s), 16)
    return int(re.sub(r'[ul]+$', '', s))


def check(name, a, b):
    global bad, total
    a, b = list(a), list(b)
    total += len(a)
    if not a or a != b:
        bad += 1
        print('DIFFERENT', name, len(a), len(b))
        for x, y in zip(a, b):
            if x != y:
                print('   code ', x, '\n   model', y)
                break
    else:
        print('same', name, len(a), 'items')


def block(t, start, open_='{', close='}'):
    """the bracketed text following the first match of `start`"""
    m = re.search(start, t)
    assert m, start
    i = t.index(open_, m.end() - 1 if t[m.end() - 1] == open_ else m.end())
    d = 0
    for j in range(i, len(t)):
        if t[j] == open_:
            d += 1
        elif t[j] == close:
            d -= 1
            if d == 0:
                return t[i + 1:j]
    raise ValueError(start)


def cls(t, name):
    return block(t, r'(class|struct)\s+' + name + r'\b[^;{]*\{')


def ldef(t, name, ns=None):
    """the body of a Lean definition"""
    if ns:
        t = t.split('namespace ' + ns + '\n', 1)[1]
        t = re.split(r'\nend ' + ns + r'\b', t)[0]
    m = re.search(r'(?:^|\n)def ' + re.escape(name) + r'\b', t)
    assert m, name
    r = t[m.end():]
    e = re.search(r'\n(?:def|structure|inductive|namespace|end|theorem|abbrev)\b', r)
    return r[:e.start()] if e else r


def nums(t):
    return [num(x) for x in re.findall(r'(?<![\w#])(?:0[xX][0-9a-fA-F]+|\d+)(?:[uUlL]+)?(?:#\d+)?', t)]


def rows(t):
    return [tuple(x.strip().lstrip('.') for x in r.split(',')) for r in re.findall(r'⟨([^⟩]*)⟩', t)]


# ---- MD5
c = cls(cpp('md5.hpp'), 'md5_128')
l = lean('Md5.lean')
calls = re.findall(r'\b(FF|GG|HH|II)\(\s*([a-d]),\s*([a-d]),\s*([a-d]),\s*([a-d]),\s*x\[\s*(\d+)\s*\],\s*(S\d\d),\s*(0x[0-9a-f]+)\s*\);', c)
check('md5 calls', [(f, a, b, c_, d, int(k), s, num(ac)) for f, a, b, c_, d, k, s, ac in calls],
      [(f, a, b, c_, d, int(k), s, num(ac)) for f, a, b, c_, d, k, s, ac in rows(ldef(l, 'rows'))])
check('md5 shifts', [(a, int(b)) for a, b in re.findall(r'constexpr int (S\d\d) = (\d+);', c)],
      [(a, int(b)) for a, b in re.findall(r'def (S\d\d) := (\d+)', l)])


# ---- SHA-1
c = cls(cpp('sha1.hpp'), 'sha1_160')
l = lean('Sha1.lean')
calls = re.findall(r'\b(R[1-5])\(\s*([a-e]),\s*([a-e]),\s*([a-e]),\s*([a-e]),\s*([a-e]),\s*w,(?:\s*block,)?\s*(\d+)\s*\);', c)
check('sha1 calls', [x[:6] + (int(x[6]),) for x in calls], [x[:6] + (int(x[6]),) for x in rows(ldef(l, 'rows'))])

# ---- RIPEMD
t = cpp('ripemd.hpp')
for nm, cl, f, regs in (('ripemd_128', 'ripemd_128', 'Rip128.lean', 4), ('ripemd_160', 'ripemd_160', 'Rip160.lean', 5)):
    c = cls(t, cl)
    l = lean(f)
    r = r'\b(RR?\d)\(\s*' + r'(\w+),\s*' * regs + r'[xX]\[\s*(\d+)\s*\]\s*,\s*(\d+)\s*\);'
    calls = re.findall(r, c)
    conv = lambda x: x[:1 + regs] + (int(x[1 + regs]), int(x[2 + regs]))
    check(nm + ' calls', map(conv, calls), map(conv, rows(ldef(l, 'rows'))))

# ---- SHA-2 tables and initial values
t = cpp('sha2.hpp')
l = lean('Sha2.lean')
check('sha2 K256', nums(block(cls(t, 'sha2_256_constants'), r'K\[ 64 \] =')), nums(ldef(l, 'K256').split(':=')[1]))
check('sha2 K512', nums(block(cls(t, 'sha2_512_constants'), r'K\[ 80 \] =')), nums(ldef(l, 'K512').split(':=')[1]))
for cn in ('sha2_256', 'sha2_224', 'sha2_512', 'sha2_384', 'sha2_512_224', 'sha2_512_256'):
    body = cls(t, cn)
    iv = [num(v) for _, v in sorted(((int(i), v) for i, v in re.findall(r'state_\[\s*(\d)\s*\]\s*=\s*(0x[0-9a-fA-F]+)', body)))]
    m = re.search(r'⟨([^⟩]*)⟩', ldef(l, cn.replace('sha2_', 'sha') + 'IV'))
    check(cn + ' iv', iv, nums(m.group(1)))


# ---- straight-line code
OPS = {'+=': '+', '^=': '^^^', '*=': '*'}


def cpp_stmts(body):
    """x op= y, x = rotl( x, k ), x ^= x >> k, x = x * a + b, declarations with an initialiser"""
    out = []
    for s in body.split(';'):
        s = ' '.join(s.split())
        s = re.sub(r'^std::uint\d\d_t ', '', s.replace('detail::', ''))
        if not s:
            continue
        m = re.fullmatch(r'(\w+) (\+=|\^=|\*=) (.+)', s)
        m2 = re.fullmatch(r'(\w+) = (.+)', s)
        if m:
            x, op, e = m.groups()
            out.append((x, OPS[op], expr(e)))
        elif m2:
            x, e = m2.groups()
            r = re.fullmatch(r'rotl\( *(\w+), *(\d+) *\)', e)
            if r:
                out.append((x, 'rotl', r.group(1), int(r.group(2))))
            else:
                out.append((x, '=', expr(e)))
        else:
            out.append(('?', s))
    return out


def expr(e):
    e = e.strip()
    r = re.fullmatch(r'read(\d+)le\( (\w+)(?: \+ *(\d+))? \)', e)
    if r:
        return ('read', int(r.group(1)), r.group(2), int(r.group(3) or 0))
    r = re.fullmatch(r'(\w+) >> (\d+)', e)
    if r:
        return ('shr', r.group(1), int(r.group(2)))
    r = re.fullmatch(r'(\w+) \* (\w+) \+ (\w+)', e)
    if r:
        return ('muladd', r.group(1), atom(r.group(2)), atom(r.group(3)))
    r = re.fullmatch(r'(\w+) \* (\w+)', e)
    if r:
        return ('mul', r.group(1), atom(r.group(2)))
    return atom(e)


def atom(e):
    e = re.sub(r'_$', '', e.strip())
    try:
        return num(e)
    except ValueError:
        return e


def lean_stmts(body):
    out = []
    for s in body.split('\n'):
        s = ' '.join(s.split())
        m = re.fullmatch(r'let (\w+) (?::=|←) (.+)', s)
        if not m:
            continue
        x, e = m.groups()
        if re.fullmatch(r'\w+\.(st\.)?\w+', e):     # projections of the state into the local variables
            continue
        r = re.fullmatch(r'rotl (\w+) (\d+)', e)
        if r:
            out.append((x, 'rotl', r.group(1), int(r.group(2))))
            continue
        r = re.fullmatch(re.escape(x) + r' (\+|\^\^\^|\*) (.+)', e)
        if r and ' + ' not in r.group(2).replace('(← p.add', ''):
            out.append((x, r.group(1), lexpr(r.group(2))))
        else:
            out.append((x, '=', lexpr(e)))
    return out


def lexpr(e):
    e = e.strip()
    r = re.fullmatch(r'(?:\(← )?read(\d+)le env \(← (\w+)\.add (\d+)\)\)?', e)
    if r:
        return ('read', int(r.group(1)), r.group(2), int(r.group(3)))
    r = re.fullmatch(r'\((\w+) >>> (\d+)\)', e)
    if r:
        return ('shr', r.group(1), int(r.group(2)))
    r = re.fullmatch(r'(\w+) \* (\S+) \+ (\S+)', e)
    if r:
        return ('muladd', r.group(1), atom(r.group(2)), atom(r.group(3)))
    r = re.fullmatch(r'(\w+) \* (\S+)', e)
    if r:
        return ('mul', r.group(1), atom(r.group(2)))
    return atom(e)


c = cls(cpp('legacy/spooky2.hpp'), 'spooky2_128')
l = lean('Spooky.lean')
for f, g in (('short_mix', 'short_mix'), ('short_end', 'short_end'), ('mix', 'mix'), ('end_partial', 'end_partial')):
    check('spooky2 ' + f, cpp_stmts(block(c, r'inline void ' + f + r'\([^)]*\)\s*\{')), lean_stmts(ldef(l, g)))
a = [x for x in cpp_stmts(block(c, r'inline void end\([^)]*\)\s*\{')) if x[0] != '?']
check('spooky2 end', a, [x for x in lean_stmts(ldef(l, 'end_')) if x[0] != 'v'])

t = cpp('siphash.hpp')
for cn, f in (('siphash_64', 'Sip64.lean'), ('siphash_32', 'Sip32.lean')):
    c = cls(t, cn)
    l = lean(f)
    check(cn + ' sipround', cpp_stmts(block(c, r'void sipround\(\)\s*\{')), lean_stmts(ldef(l, 'sipround')))
    iv = [num(v) for v in re.findall(r'v\d = (\w+);', c)][:4]
    check(cn + ' iv', iv, nums(re.search(r'⟨([^⟩]*)⟩', ldef(l, 'iv')).group(1)))

t = cpp('xxhash.hpp')
for cn, f in (('xxhash_32', 'XX32.lean'), ('xxhash_64', 'XX64.lean')):
    c = cls(t, cn)
    l = lean(f)
    check(cn + ' primes', [(p, num(v)) for p, v in re.findall(r'(P[1-5])\s*=\s*(\w+);', c)],
          [(p, num(v)) for p, v in re.findall(r'def (P[1-5]) : \w+ := (\S+)', l)])

t = cpp('legacy/murmur3.hpp')
l = lean('Murmur.lean')
for cn, ns in (('murmur3_32', 'Mur32'), ('murmur3_128', 'Mur128')):
    c = cls(t, cn)
    ln = l.split('namespace ' + ns + '\n', 1)[1].split('\nend ' + ns)[0]
    check(cn + ' constants', [(p, num(v)) for p, v in re.findall(r'(c[12])\s*=\s*(\w+);', c)],
          [(p, num(v)) for p, v in re.findall(r'def (c[12]) : \w+ := (\S+)', ln)])
c32, c128 = cls(t, 'murmur3_32'), cls(t, 'murmur3_128')
check('murmur3_32 mix', cpp_stmts(block(c32, r'void mix\([^)]*\)\s*\{')), lean_stmts(ldef(l, 'mix', 'Mur32')))
a = [x for x in cpp_stmts(block(c128, r'fmix\([^)]*\)\s*\{')) if x[0] != '?']
check('murmur3_128 fmix', a, lean_stmts(ldef(l, 'fmix', 'Mur128')))
body = block(block(c128, r'void update_\([^)]*\)\s*\{'), r'for\([^)]*\)\s*\{')
a = [x for x in cpp_stmts(body) if x[0] != '?']
check('murmur3_128 update_', a, lean_stmts(ldef(l, 'block', 'Mur128')))

# ---- FNV-1a
t = cpp('fnv1a.hpp')
l = lean('Fnv.lean')
A = sorted(x for x in nums(t) if x > 10 ** 5)
B = sorted(set(x for x in nums(l) if x > 10 ** 5))
check('fnv1a constants', sorted(set(A)), B)

# ---- get_integral_result multipliers
t = cpp('get_integral_result.hpp')
A = re.findall(r'sizeof\(R\) == (\d) && sizeof\(U\) == (\d), \w>::type\s+get_result_multiplier\(\)\s*\{\s*return (\w+);', t)
B = re.findall(r'\| (\d), (\d) => (0x[0-9A-Fa-f]+)', ldef(lean('Integral.lean'), 'multiplier'))
check('integral multipliers', [(a, b, num(x)) for a, b, x in A], [(a, b, num(x)) for a, b, x in B])

# ---- initial values written as default member initialisers
for f, cn, lf in (('md5.hpp', 'md5_128', 'Md5.lean'), ('sha1.hpp', 'sha1_160', 'Sha1.lean'),
                  ('ripemd.hpp', 'ripemd_128', 'Rip128.lean'), ('ripemd.hpp', 'ripemd_160', 'Rip160.lean')):
    a = nums(block(cls(cpp(f), cn), r'state_\[ \d \] ='))
    check(cn + ' iv', a, nums(re.search(r'⟨([^⟩]*)⟩', ldef(lean(lf), 'iv')).group(1)))


# ---- Boolean functions, text against text with the operators renamed
def norm(e):
    e = e.replace('detail::', '')
    e = re.sub(r'\b(rot[lr])\( *(\w+), *(\d+) *\)', r'\1 \2 \3', e)
    e = e.replace('>>', '@').replace('~', '~~~').replace('&', '&&&').replace('|', '|||').replace('^', '^^^').replace('@', '>>>')
    return re.sub(r'\( ', '(', re.sub(r' \)', ')', ' '.join(e.split())))


def cfun(c, f):
    return norm(re.search(r'return (.*?);', block(c, r'\b' + f + r'\([^)]*\)(?: noexcept)?\s*\{')).group(1))


def lfun(l, f):
    return ' '.join(re.search(r'\ndef ' + f + r' [^\n]*? := ([^\n]*)', l).group(1).split())


for f, cn, lf, fs in (('md5.hpp', 'md5_128', 'Md5.lean', 'FGHI'),
                      ('ripemd.hpp', 'ripemd_128', 'Rip128.lean', ('F1', 'F2', 'F3', 'F4')),
                      ('ripemd.hpp', 'ripemd_160', 'Rip160.lean', ('F1', 'F2', 'F3', 'F4', 'F5'))):
    c, l = cls(cpp(f), cn), lean(lf)
    check(cn + ' functions', [cfun(c, x) for x in fs], [lfun(l, x) for x in fs])
fs = ('Ch', 'Maj', 'Sigma0', 'Sigma1', 'sigma0', 'sigma1')
t, l = cpp('sha2.hpp'), lean('Sha2.lean')
for cn, ns in (('sha2_256_base', 'S256'), ('sha2_512_base', 'S512')):
    ln = '\n' + l.split('namespace ' + ns + '\n', 1)[1].split('\nend ' + ns)[0]
    check(cn + ' functions', [cfun(cls(t, cn), x) for x in fs], [lfun(ln, x) for x in fs])

# ---- the step functions: which Boolean function and which constant
for cn, lf in (('ripemd_128', 'Rip128.lean'), ('ripemd_160', 'Rip160.lean')):
    c, l = cls(cpp('ripemd.hpp'), cn), lean(lf)
    a = [(f, g, num(k) if k else 0) for f, g, k in
         re.findall(r'void (RR?\d)\([^)]*\)\s*\{\s*a \+= (F\d)\(b, c, d\) \+ x(?: \+ (\w+))?;', c)]
    ev = dict(re.findall(r'\| \.(\w+) => (F\d)', ldef(l, 'Fn.eval')))
    co = dict(re.findall(r'\| \.(\w+) => (\S+)', ldef(l, 'Fn.const')))
    check(cn + ' steps', a, [(f, ev[f], num(co[f])) for f, _, _ in a])
c, l = cls(cpp('sha1.hpp'), 'sha1_160'), lean('Sha1.lean')
a = [(f, norm(g), num(k)) for f, g, k in
     re.findall(r'void (R\d)\([^)]*\)\s*\{(?:\s*w\[ i \] = [^;]*;)?\s*std::uint32_t f = ([^;]*);\s*e \+= detail::rotl\( a, 5 \) \+ f \+ (\w+) \+', c)]
fn = dict(re.findall(r'\| \.(\w+) => fun b c d => ([^\n]*)', ldef(l, 'Fn.f')))
co = dict(re.findall(r'\| \.(\w+) => (\S+)', ldef(l, 'Fn.const')))
check('sha1_160 steps', a, [(f, fn[f], num(co[f])) for f, _, _ in a])

# ---- citations: every cited file exists and has the cited lines, and every definition of the model has a citation
files = {}
for d, _, fs in os.walk(REPO):
    if '/.git' in d:
        continue
    for f in fs:
        files.setdefault(f, []).append(os.path.join(d, f))
nc = 0
for f in sorted(os.listdir(MODEL)):
    t = open(os.path.join(MODEL, f)).read()
    for m in re.finditer(r'/--(.*?)-/\s*(?:@\[[^\]]*\]\s*)?(?:abbrev|def|structure|inductive)\s+(\S+)', t, re.S):
        cites = re.findall(r'([\w/.]+\.(?:hpp|cpp|adoc)):(\d+(?:-\d+)?(?:, \d+(?:-\d+)?)*)', m.group(1))
        if not cites and not re.search(r'\.(hpp|cpp|adoc)|\[\w+(?:\.\w+)+\]|std::', m.group(1)):
            print('NO CITATION', f, m.group(2), ' '.join(m.group(1).split())[:80])
        for name, lines in cites:
            cand = [x for x in files.get(os.path.basename(name), []) if x.endswith(name)]
            if not cand:
                print('NO SUCH FILE', f, m.group(2), name)
                bad += 1
                continue
            n = max(len(open(x).read().splitlines()) for x in cand)
            for r in lines.split(', '):
                nc += 1
                ab = [int(x) for x in r.split('-')]
                if ab[0] < 1 or ab[-1] > n or ab != sorted(ab):
                    print('BAD LINES', f, m.group(2), name, r, 'of', n)
                    bad += 1
print('%d cited line ranges exist' % nc)

print('%d items compared, %d groups differ' % (total, bad))
sys.exit(1 if bad else 0)
