"""Runs the project's own test vectors (src/tests.rs and the doc examples of src/lib.rs, read as text)
through the Lean model. Usage: python3 tools/conformance.py   (from anywhere; needs `lake build` done)"""
import re, subprocess, sys
SRC = open('/repo/src/tests.rs', encoding='utf-8').read()
F = {'default': 0, 'NO_CALLING_CONVENTION': 1, 'NO_TAG_SPECIFIER': 2, 'NO_ACCESS_SPECIFIER': 4, 'NO_MEMBER_TYPE': 8,
     'NO_RETURN_TYPE': 16, 'NO_VARIABLE_TYPE': 32, 'NO_THISTYPE': 64, 'NO_LEADING_UNDERSCORES': 128,
     'NO_MS_KEYWORDS': 256, 'NAME_ONLY': 512}
ESC = {'n': '\n', 't': '\t', 'r': '\r', '0': '\0', '\\': '\\', '"': '"', "'": "'"}

def lit(s, i):
    """A Rust string literal at s[i]: its value and the position after it, or None."""
    m = re.compile(r'r(#*)"').match(s, i)
    if m:
        end = '"' + m.group(1)
        j = s.index(end, m.end())
        return s[m.end():j], j + len(end)
    if s[i] == '"':
        out = []; i += 1
        while s[i] != '"':
            if s[i] == '\\':
                i += 1
                if s[i] == 'x': out.append(chr(int(s[i+1:i+3], 16))); i += 3
                elif s[i] == 'u':
                    j = s.index('}', i); out.append(chr(int(s[i+2:j], 16))); i = j + 1
                elif s[i] == '\n':
                    i += 1
                    while s[i].isspace(): i += 1
                else: out.append(ESC[s[i]]); i += 1
            else: out.append(s[i]); i += 1
        return ''.join(out), i + 1
    return None

def args(s, i):
    """The arguments of a call whose `(` is just before i: literals as ('s', v), anything else as ('e', text)."""
    out = []; buf = ''; depth = 0
    while True:
        if s[i].isspace() and not buf: i += 1; continue
        if depth == 0 and not buf.strip():
            l = lit(s, i)
            if l: out.append(('s', l[0])); i = l[1]; buf = '\x00'; continue
        c = s[i]
        if s.startswith('//', i): i = s.index('\n', i); continue
        if c in '([{': depth += 1
        if c in ')]}':
            if depth == 0:
                if buf.strip('\x00 \n\t'): out.append(('e', buf.strip('\x00 \n\t')))
                return out, i
            depth -= 1
        if c == ',' and depth == 0:
            if buf != '\x00' and buf.strip('\x00 \n\t'): out.append(('e', buf.strip('\x00 \n\t')))
            buf = ''; i += 1; continue
        buf += c; i += 1

vec = []   # (flags, mode, name, expected); mode: sub, eq, err
unknown = 0
for fn in re.split(r'(?=^fn )', SRC, flags=re.M):
    m = re.match(r'fn (\w+)', fn)
    if not m or m.group(1) in ('do_test', 'test'): continue
    optflag = None
    mm = re.search(r'let test_option = .*?Flags::(\w+)', fn, re.S)
    if mm: optflag = F[mm.group(1)]
    for c in re.finditer(r'\b(test|test_invalid|test_option|test_options|do_test)\(', fn):
        a, _ = args(fn, c.end())
        k = c.group(1); s = [v for t, v in a if t == 's']
        if len(s) < (1 if k == 'test_invalid' else 2): 
            if s: unknown += 1; print('UNPARSED', m.group(1), a)
            continue
        if k == 'test': vec.append((0, 'sub', s[0], s[1]))
        elif k == 'test_invalid': vec.append((0, 'err', s[0], ''))
        elif k == 'test_option': vec.append((optflag, 'eq', s[0], s[1]))
        elif k == 'do_test': vec.append((0, 'eq', s[0], s[1]))
        elif k == 'test_options':
            for fl, e in zip((0, 1, 16, 4, 8, 32, 1 | 16 | 4 | 8 | 32), s[1:]): vec.append((fl, 'eq', s[0], e))
lib = open('/repo/src/lib.rs', encoding='utf-8').read()
for b in re.findall(r'let input = .*?```', lib, re.S):
    inp = re.search(r'let input = "(.*?)";', b).group(1)
    fl = F[re.search(r'Flags::(NO_\w+|NAME_ONLY)\)', b).group(1)]
    wo = re.search(r'assert_eq!\(without_flag,\s*"(.*?)"\)', b).group(1)
    wi = re.search(r'assert_eq!\(with_flag,\s*"(.*?)"\)', b).group(1)
    vec += [(0, 'eq', inp, wo), (fl, 'eq', inp, wi)]
print('vectors', len(vec), 'of which invalid', sum(v[1] == 'err' for v in vec))
open('/tmp/conf.txt', 'w', encoding='utf-8').write('\n'.join(f'x\t{v[0]}\t{v[2]}' for v in vec) + '\n')
out = subprocess.run('lake env lean --run /verif/tools/Conformance.lean.txt /tmp/conf.txt', shell=True, cwd='/verif/lean',
                     capture_output=True, text=True)
lines = [l for l in out.stdout.split('\n') if l]
bad = 0
if len(lines) != len(vec): print('LINES', len(lines), out.stderr[:500]); bad += 1
for v, l in zip(vec, lines):
    r = l.split('\t')[3]
    r = re.sub(r' #\d+$', '', r)
    ok = r.startswith('ok ') or r == 'ok'
    t = r[3:]
    good = (not ok and not r.startswith('crash')) if v[1] == 'err' else ok and (v[3] in t if v[1] == 'sub' else v[3] == t)
    if not good: bad += 1; print('MISMATCH', v, r)
print('mismatches', bad, 'unparsed', unknown)
