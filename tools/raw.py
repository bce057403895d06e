#!/usr/bin/env python3
"""Generates lean/Verif/Raw/{Nodes,Output,Parser}.lean: the definitions of Model/Nodes.lean, Model/Output.lean and
Model/Parser.lean with texts stored as bytes. The generated text is proved to refine the original (Raw/Ref*.lean), so
nothing rests on this script."""
import re, os
from timed import blocks, name_of, root

def strip_(b): return re.sub(r"'[^']'", '', re.sub(r'/-.*?-/', '', b, flags=re.S))

def wrap(parts): 
    t = '\n\n'.join(parts)
    t = t.replace('namespace Undname\n', 'namespace Undname.Raw\nopen Undname (Text)\n', 1)
    return re.sub(r'end Undname\s*$', 'end Undname.Raw\n', t)

# ---- nodes
src = open(f'{root}/Model/Nodes.lean').read()
start = src.index('/-- `enum NodeStorage`')
kind = src.index('/-- The interfaces at which handles are resolved')
ns = src.index('namespace Node\n')
body = src[start:kind] + src[ns:]
body = body.replace('(name : Text)', '(name : Bytes)').replace('(decoded_string : Text)', '(decoded_string : Bytes)')
body = re.sub(r'end Undname\s*$', 'end Undname.Raw\n', body)
open(f'{root}/Raw/Nodes.lean', 'w').write('''/-
  The nodes and the cache of Model/Nodes.lean with names stored as bytes. Generated by tools/raw.py.
-/
import Verif.Model.Nodes
import Verif.Raw.Utf8

namespace Undname.Raw
open Undname (Fail Error Crash Text)

''' + body)

# ---- output
src = open(f'{root}/Model/Output.lean').read()
HAND_O = {
 'W': '''/-- Computations that write to a `Writer`: the state is the bytes written so far. -/
abbrev W := SM Bytes''',
 'write': '''/-- `BufWriter::write`, src/demangler.rs:155-168. -/
def write (b : Bytes) : W Unit := fun w =>
  if b.length + w.length < OUTPUT_LIMIT then .ok ((), w ++ b) else .error (.err (.Io .OutOfMemory))

/-- `write!` of a literal or of the decimal digits of a number. -/
def writeT (t : Text) : W Unit := write (enc t)

/-- `Buffer::last_char`, src/demangler.rs:121-126. -/
def last_char : W (Option Char) := fun w =>
  if from_utf8 w then
    match next_back w with
    | .ok c => .ok (c, w)
    | .error e => .error e
  else .ok (none, w)''',
 'output_space_if_necessary': '''/-- `output_space_if_necessary`, src/nodes/mod.rs:115-122. -/
def output_space_if_necessary (E : Env) : W Unit := do
  let last ← last_char
  match last with
  | some c => whenB (isAlphanumeric E.uni c || c == '>') (writeT c!" ")
  | none => pure ()''',
}
DROP_O = {'Env', 'whenB', 'whenSome', 'OUTPUT_LIMIT'}
res = ['''/-
  The rendering of nodes of Model/Output.lean on bytes. Generated by tools/raw.py.
-/
import Verif.Model.Output
import Verif.Raw.Nodes
''']
def needed_o(b):
    c = strip_(b)
    return bool(re.search(r'\bW\b|\bOutFns\b|\bNode\b', c))
def fix_o(b):
    b = b.replace('cc.output E', 'CallingConv.output E cc')
    b = re.sub(r'\bwrite\b(?! to)', 'writeT', b)
    b = b.replace('writeT name\n', 'write name\n')
    b = b.replace('writeT (c!"operator \\"\\"" ++ name)', 'write (enc c!"operator \\"\\"" ++ name)')
    b = b.replace('writeT (ch.prefixText ++ s ++ c!"\\"" ++ (if trunc then c!"..." else []))',
                  'write (enc ch.prefixText ++ s ++ enc c!"\\"" ++ (if trunc then enc c!"..." else []))')
    b = b.replace("    let w ← SM.get\n    whenB (match w.getLast? with", "    let last ← last_char\n    whenB (match last with")
    b = b.replace('utf8Len before < utf8Len after', 'before.length < after.length')
    return b
for b in blocks(src):
    n = name_of(b)
    if b.startswith('import') or re.match(r'/-\s*\n', b): continue
    if re.match(r'(section|end|namespace|variable)\b', b):
        res.append(b)
        if b.startswith('namespace Qualifiers'): res.append('open Undname.Qualifiers (SingleQualifier has Q_None)')
        continue
    if n in HAND_O: res.append(HAND_O[n]); continue
    if n is None or n in DROP_O or not needed_o(b): continue
    res.append(fix_o(b))
open(f'{root}/Raw/Output.lean', 'w').write(wrap(res))

# ---- parser
src = open(f'{root}/Model/Parser.lean').read()
HAND_P = {
 'tryBytes': '''/-- `self.mangled_name.try_consume_n_bytes(n)` -/
def tryBytes (n : Nat) : P (Option Bytes) := onStr (MStr.try_consume_n_bytes n)''',
 'firstIs': '''/-- `self.mangled_name.first_char().is_some_and(f)` -/
def firstIs (f : Char → Bool) : P Bool := queryE (MStr.first_is f)''',
 'runW': '''/-- Rendering into a `BufWriter` holding `t`; the result is its bytes. -/
def runW (m : W Unit) (t : Bytes) : P Bytes := fun s =>
  match m t with
  | .ok (_, t') => .ok (t', s)
  | .error e => .error e

/-- `ob.try_into()?`, src/demangler.rs:174-182 with src/lib.rs:193-197: `std::str::from_utf8`. -/
def try_into (t : Bytes) : P Bytes := if from_utf8 t then pure t else SM.err .Utf8Error''',
 'demangle_type_body': '''/-- The dispatch of `demangle_type`, src/demangler.rs:563-585. -/
def demangle_type_body : P Handle := do
  let b ← queryE MStr.is_tag_type
  if b then demangle_class_type rend r
  else do
    let b ← queryE MStr.is_pointer_type
    if b then do
      let k ← queryE MStr.is_member_pointer
      match k with
      | some true => demangle_member_pointer_type rend r
      | some false => demangle_pointer_type r
      | none => SM.err .InvalidType
    else do
      let b ← queryE MStr.is_array_type
      if b then demangle_array_type r
      else do
        let b ← query MStr.is_function_type
        if b then do
          let a8 ← tryStr c!"$$A8@@"
          if a8 then demangle_function_type r true
          else do
            let a6 ← tryStr c!"$$A6"
            if a6 then demangle_function_type r false else SM.err .InvalidType
        else do
          let b ← queryE MStr.is_custom_type
          if b then demangle_custom_type r else demangle_primitive_type''',
}
DROP_P = {'QMM', 'NBB', 'NBB.is_template', 'NBB.is_simple', 'CodeGroup', 'NODE_LIMIT'}
res = ['''/-
  The parser of Model/Parser.lean on bytes. Generated by tools/raw.py.
-/
import Verif.Model.Parser
import Verif.Raw.Output
import Verif.Raw.Str
''']
def needed_p(b):
    c = strip_(b)
    return bool(re.search(r'\bP\b|\bW\b|\bFns\b|\bNode\b|\bSt\b|\bRenderer\b', c))
def fix_p(b):
    b = re.sub(r"query fun m => m\.find_char ('.')", r'queryE (MStr.find_char \1)', b)
    b = b.replace('query MStr.first_char', 'queryE MStr.first_char')
    b = re.sub(r'\bwrite\b', 'writeT', b)
    n = name_of(b)
    if n == 'memorize_string': b = b.replace('(t : Text)', '(t : Bytes)')
    if n == 'demangle_simple_string': b = b.replace('P Text', 'P Bytes')
    if n == 'synthesize_from_name': b = b.replace('(name : Text)', '(name : Bytes)')
    if n in ('wideBody', 'decodeBody'): b = b.replace('Text', 'Bytes')
    b = b.replace("intern (.NamedIdentifier none c!\"`anonymous namespace'\")", "intern (.NamedIdentifier none (enc c!\"`anonymous namespace'\"))")
    b = b.replace('intern (.NamedIdentifier none intrinsic_name)', 'intern (.NamedIdentifier none (enc intrinsic_name))')
    b = b.replace('intern (.NamedIdentifier none variable_name)', 'intern (.NamedIdentifier none (enc variable_name))')
    b = b.replace("synthesize_from_name c!\"`RTTI Type Descriptor'\"", "synthesize_from_name (enc c!\"`RTTI Type Descriptor'\")")
    if n == 'demangle_md5_name':
        i = b.index('  match splitAtBytes')
        b = b[:i] + '''  let md5 ← SM.lift (slice_upto copy (stop + 1))   -- line 406
  let name ← synthesize_from_name md5
  intern (.Md5Symbol name)'''
    if n == 'memorize_identifier': b = b.replace('  memorize_string t', '  let t ← try_into t\n  memorize_string t')
    if n == 'demangle_locally_scoped_name_piece':
        b = b.replace('    intern (.NamedIdentifier none name)', '    let name ← try_into name\n    intern (.NamedIdentifier none name)')
    if n == 'demangle_string_literal':
        b = b.replace('      intern (.EncodedStringLiteral', '      let t ← try_into t\n      intern (.EncodedStringLiteral')
    return b
for b in blocks(src):
    n = name_of(b)
    if b.startswith('import') or re.match(r'/-\s*\n', b): continue
    if re.match(r'(section|end|namespace|variable)\b', b): res.append(b); continue
    if b.startswith('/-!'): res.append(b); continue
    if n in HAND_P: res.append(HAND_P[n]); continue
    if n is None or n in DROP_P or not needed_p(b): continue
    res.append(fix_p(b))
open(f'{root}/Raw/Parser.lean', 'w').write(wrap(res))
