#!/usr/bin/env python3
"""Generates lean/Verif/Timed/{Output,Parser}.lean: the monadic definitions of Model/Output.lean and Model/Parser.lean,
word for word, in the monad that counts steps (Timed/Monad.lean). The generated text is proved to compute the same results
as the original (Timed/Erase*.lean), so nothing rests on this script."""
import re, sys, os
root = os.path.join(os.path.dirname(os.path.abspath(__file__)), '..', 'lean', 'Verif')

def blocks(src):
    lines = src.split('\n')
    out, cur, incomment = [], [], False
    i = 0
    def flush():
        nonlocal cur
        if cur and any(l.strip() for l in cur): out.append('\n'.join(cur).strip('\n'))
        cur = []
    for l in lines:
        top = re.match(r'(/--|/-!|/-|def |structure |inductive |abbrev |open .* in|section|end\b|namespace|variable|import|theorem|instance)', l)
        if top and not incomment:
            prev = [x for x in cur if x.strip()]
            # a declaration right after its doc comment or `open .. in` belongs to the same block
            joined = prev and (prev[-1].rstrip().endswith('-/') and prev[0].startswith('/--') and not any(re.match(r'(def|structure|inductive|abbrev) ', x) for x in prev)
                     or re.match(r'open .* in', prev[-1]))
            if not joined: flush()
        cur.append(l)
        if l.lstrip().startswith('/-') and '-/' not in l: incomment = True
        if '-/' in l: incomment = False
    flush()
    return out

def name_of(b):
    m = re.search(r'^(?:def|structure|inductive|abbrev) ([\w.?]+)', b, re.M)
    return m.group(1) if m else None

PRIMS = {'W','write','Env','whenB','whenSome','OUTPUT_LIMIT','onStr','intern','P','runW','St','NODE_LIMIT','Renderer','memorize_string','tryBytes'}
def monadic(b):
    body = re.sub(r'/-.*?-/', '', b, flags=re.S)
    return bool(re.search(r'\b(W|P) |\bSM\b|\bOutFns\b|\bFns\b|: W$|→ W Unit', body))

def gen(src, head, extra_drop=()):
    res = [head]
    for b in blocks(src):
        n = name_of(b)
        if b.startswith('import') or re.match(r'/-\s*\n', b): continue
        if re.match(r'(section|end|namespace|variable)\b', b):
            res.append(b)
            if b.startswith('namespace Qualifiers'): res.append('open Undname.Qualifiers (SingleQualifier has Q_None)')
            continue
        if b.startswith('/-!'): res.append(b); continue
        if n is None: continue
        if n in PRIMS or n in extra_drop: continue
        if not monadic(b): continue
        b = b.replace('cc.output E', 'CallingConv.output E cc')
        # operations that are loops in the code have counterparts in Timed/Monad.lean that charge for the iterations
        b = b.replace('let w ← SM.get\n', 'let w ← look\n')
        b = b.replace("query fun m => m.find_char '@'", "findChar '@'")
        b = b.replace('queryE MStr.starts_with_local_scope_pattern', 'localScope')
        b = b.replace('runW (rend', 'runFresh (rend').replace('let name ← runW (do', 'let name ← runFresh (do')
        res.append(b)
    t = '\n\n'.join(res)
    t = t.replace('namespace Undname\n', 'namespace Undname.Timed\n', 1)
    t = re.sub(r'end Undname\s*$', 'end Undname.Timed\n', t)
    return t

o = open(f'{root}/Model/Output.lean').read()
p = open(f'{root}/Model/Parser.lean').read()
os.makedirs(f'{root}/Timed', exist_ok=True)
open(f'{root}/Timed/Output.lean','w').write(gen(o, '''/-
  The rendering functions of Model/Output.lean in the monad that counts steps. Generated by tools/timed.py; the
  definitions are those of Model/Output.lean, which cite the code they model.
-/
import Verif.Timed.Monad
'''))
open(f'{root}/Timed/Parser.lean','w').write(gen(p, '''/-
  The parser of Model/Parser.lean in the monad that counts steps. Generated by tools/timed.py; the definitions are
  those of Model/Parser.lean, which cite the code they model.
-/
import Verif.Timed.Output
'''))
