"""Systematic mutation: enumerate small syntactic edits of the model (one token or one statement), sample
them with a fixed seed, rebuild the proofs (without the step-counting and byte-level copies of the model, which are
generated from it, and without the renaming relation, which follows it line by line) and record the survivors.  usage: automut.py SEED COUNT LOG"""
import re, os, sys, json, random, shutil, subprocess, time
SRC = '/verif/lean'; DST = '/tmp/automut/lean'; SNAP = '/tmp/automut/snap'
FILES = ['Verif/Model/Parser.lean', 'Verif/Model/Output.lean', 'Verif/Model/Api.lean', 'Verif/Model/Basic.lean',
         'Verif/Model/Nodes.lean', 'Verif/Model/Cli.lean']

def strip(s):
    """blank out comments, keep offsets"""
    s = list(s); i = 0; t = ''.join(s)
    for m in re.finditer(r'/-.*?-/|--[^\n]*', t, re.S):
        for k in range(m.start(), m.end()):
            if s[k] != '\n': s[k] = ' '
    return ''.join(s)

def edits(f):
    src = open(os.path.join(SNAP, f)).read(); t = strip(src); res = []
    def add(a, b, new, kind): res.append((f, a, b, new, kind))
    for m in re.finditer(r"'([^'\\\n])'", t):
        c = m.group(1); n = chr(ord(c) + 1)
        if n in "'\\": n = 'Z'
        add(m.start(), m.end(), f"'{n}'", 'char')
    for m in re.finditer(r'c!"((?:[^"\\\n]|\\.)*)"', t):
        x = m.group(1)
        if len(x) == 0: continue
        if x[-1] == ' ': add(m.start(), m.end(), f'c!"{x[:-1]}"', 'text')
        elif '\\' in x[-2:]: continue
        else: add(m.start(), m.end(), f'c!"{x[:-1]}{chr(ord(x[-1]) ^ 1)}"', 'text')
    for m in re.finditer(r'(?<![\w.!])(\d+)(?![\w.])', t):
        add(m.start(), m.end(), str(int(m.group(1)) + 1), 'number')
    for a, b in [(' < ', ' ≤ '), (' ≤ ', ' < '), (' && ', ' || '), (' || ', ' && '), (' == ', ' != '), (' != ', ' == '), (' = ', ' ≠ '),
                 ('.true', '.false')]:
        for m in re.finditer(re.escape(a), t):
            if a == ' = ' and not re.search(r'if [^\n]*$', t[:m.start()]): continue
            add(m.start(), m.end(), b, 'op')
    for m in re.finditer(r'\btrue\b', t): add(m.start(), m.end(), 'false', 'bool')
    for m in re.finditer(r'\bfalse\b', t): add(m.start(), m.end(), 'true', 'bool')
    for m in re.finditer(r'(?<=[ (])!(?=[\w(])', t): add(m.start(), m.end(), '', 'not')
    for m in re.finditer(r'\n( +)(?!let|if|match|pure|fun|do|def|else|throw|\|)([\w.]+[^\n]*)(?=\n\1\S)', t):
        line = m.group(2)
        if '←' in line or ':=' in line or '=>' in line or line.rstrip().endswith(('do', 'then')): continue
        add(m.start(2), m.end(2), 'pure ()', 'drop')
    for m in re.finditer(r'\.some (\w+)|some (\w+)', t):
        add(m.start(), m.end(), 'none', 'none')
    return res

def defn(src, pos):
    ms = [m for m in re.finditer(r'^(?:@\[[^\]]*\] ?|private |partial )*(?:def|structure|inductive|abbrev|instance) (\S+)', src[:pos], re.M)]
    return ms[-1].group(1) if ms else '?'

def main():
    seed, count, log = int(sys.argv[1]), int(sys.argv[2]), sys.argv[3]
    os.makedirs('/tmp/automut', exist_ok=True)
    shutil.rmtree(SNAP, ignore_errors=True)
    shutil.copytree(SRC, SNAP, symlinks=True, ignore=shutil.ignore_patterns('.lake'))
    v = open(SNAP + '/Verif.lean').read()
    v = '\n'.join(l for l in v.split('\n') if not re.search(r'Timed|Steps|\bRaw\b|Props\.Bytes|\bRen\b|Scripts', l))
    open(SNAP + '/Verif.lean', 'w').write(v)
    if not os.path.exists(DST): shutil.copytree(SRC, DST, symlinks=True)
    all_ = [e for f in FILES for e in edits(f)]
    print(len(all_), 'candidate edits', flush=True)
    random.Random(seed).shuffle(all_)
    n = 0
    for (f, a, b, new, kind) in all_:
        if n >= count: break
        src = open(os.path.join(SNAP, f)).read()
        ls = src.rfind('\n', 0, a) + 1; le = src.find('\n', b)
        old_line = src[ls:le]; mut = src[:a] + new + src[b:]
        new_line = mut[ls:le + len(new) - (b - a)]
        shutil.rmtree(DST + '/Verif', ignore_errors=True)
        subprocess.run(['cp', '-a', '-r', SNAP + '/Verif', DST + '/'])
        shutil.copy(SNAP + '/Verif.lean', DST + '/Verif.lean')
        open(os.path.join(DST, f), 'w').write(mut)
        t0 = time.time()
        def sh(c):
            try: return subprocess.run(c + ' 2>&1', shell=True, cwd=DST, capture_output=True, text=True, timeout=2400).stdout
            except subprocess.TimeoutExpired: return 'error: TIMEOUT'
        out = sh('nice -n 19 lake build Verif.Model.Api Verif.Model.Cli')
        if 'error' in out: print('NOT COMPILING', defn(src, a), repr(new_line.strip()), flush=True); continue
        n += 1
        out = sh('LEAN_NUM_THREADS=3 nice -n 19 lake build')
        fails = []
        for mm in re.finditer(r'error: (Verif/\S+?\.lean):(\d+):\d+:', out):
            lines = open(os.path.join(DST, mm.group(1))).read().split('\n'); i = int(mm.group(2)) - 1
            while i >= 0:
                x = re.match(r'(?:private |protected |@\[[^\]]*\] )*(theorem|example|def|instance|lemma)\s*(\S+)?', lines[i])
                if x:
                    name = (x.group(2) if x.group(1) != 'example' else 'example') + ' (' + mm.group(1) + ')'
                    if name not in fails: fails.append(name)
                    break
                i -= 1
        rec = dict(definition=defn(src, a), edit=kind, old=old_line.strip(), new=new_line.strip(), theorems_failed=fails,
                   survived='Build completed successfully' in out, seconds=int(time.time() - t0))
        print(json.dumps(rec, ensure_ascii=False), flush=True)
        open(log, 'a').write(json.dumps(rec, ensure_ascii=False) + '\n')
main()
