"""Seeded-bug harness: applies one edit to a scratch copy of the model, evaluates the instances of
golden.txt on the edited model (each is an instance of a proved theorem of its claim), then rebuilds the
proofs and records which theorems fail."""
import subprocess, json, sys, os, re, shutil, time
SRC = '/verif/lean'; DST = '/tmp/seed/lean'; SNAP = '/tmp/seed/snap'; TOOLS = '/verif/tools'
P = 'Verif/Model/Parser.lean'; O = 'Verif/Model/Output.lean'; A = 'Verif/Model/Api.lean'
B = 'Verif/Model/Basic.lean'; N = 'Verif/Model/Nodes.lean'

def sh(cmd, timeout=2400):
    try:
        return subprocess.run(cmd + ' 2>&1', shell=True, cwd=DST, capture_output=True, text=True, timeout=timeout).stdout
    except subprocess.TimeoutExpired:
        return 'error: TIMEOUT'

def golden():
    out = sh('nice -n 19 lake build Verif.Model.Api')
    if 'error' in out: return None
    return sh(f'nice -n 19 lake env lean --run {TOOLS}/Golden.lean.txt {TOOLS}/golden.txt', 300).split('\n')

def run(muts, log):
    os.makedirs('/tmp/seed', exist_ok=True)
    shutil.rmtree(SNAP, ignore_errors=True)
    shutil.copytree(SRC, SNAP, symlinks=True, ignore=shutil.ignore_patterns('.lake'))
    if not os.path.exists(DST): shutil.copytree(SRC, DST, symlinks=True)
    base = open(TOOLS + '/golden.out').read().split('\n')
    for m in muts:
        shutil.rmtree(DST + '/Verif', ignore_errors=True)
        subprocess.run(['cp', '-a', '-r', SNAP + '/Verif', DST + '/'])
        shutil.copy(SNAP + '/Verif.lean', DST + '/Verif.lean')
        f = os.path.join(DST, m['file']); s = open(f).read()
        if s.count(m['old']) != 1:
            print('BAD MUTANT', m['definition'], s.count(m['old']), flush=True); continue
        open(f, 'w').write(s.replace(m['old'], m['new']))
        t = time.time()
        g = golden()
        if g is None:
            print('NOT COMPILING', m['definition'], m['edit'], flush=True); continue
        false = []
        for a, b in zip(base, g):
            if a != b:
                x = a.split('\t'); y = b.split('\t')
                if len(x) == 5 and len(y) == 5:
                    false.append(f"{x[0]}: flags {x[1]}, {x[2]!r}: proved {x[3]!r}, edited program gives {y[3]!r}" + ('' if y[4] == x[4] else f" (buffer {y[4]!r})"))
                else: false.append('output ends early')
        out = sh('nice -n 19 lake build')
        fails = []
        for mm in re.finditer(r'error: (Verif/\S+?\.lean):(\d+):\d+:', out):
            ls = open(os.path.join(DST, mm.group(1))).read().split('\n')
            i = int(mm.group(2)) - 1
            while i >= 0:
                x = re.match(r'(?:private |protected |@\[[^\]]*\] )*(theorem|example|def|instance|lemma)\s*(\S+)?', ls[i])
                if x:
                    name = (x.group(2) if x.group(1) != 'example' else 'example') + ' (' + mm.group(1) + ')'
                    if name not in fails: fails.append(name)
                    break
                i -= 1
        rec = dict(definition=m['definition'], edit=m['edit'], old=m['old'], new=m['new'], claim=m['claim'],
                   instances_falsified=false[:6], claims_falsified=sorted({x.split(':')[0] for x in false}),
                   theorems_failed=fails, survived=('Build completed successfully' in out),
                   theorems_tightened=m.get('tightened', []), seconds=int(time.time() - t))
        print(json.dumps(rec), flush=True)
        open(log, 'a').write(json.dumps(rec) + '\n')
