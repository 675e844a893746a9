#!/usr/bin/env python3
"""Writes lean/Verif/Model/Serde.lean, lean/Verif/Spec/AllSpans.lean and lean/Verif/Proofs/SerdeTrip.lean from the struct and
enum declarations in /repo/ast/src."""
from astdecl import *
import re
def need(p):
    if p[0] in('opt','vec') and rec(p):
        helpers[hname(p)]=p; need(p[1])
def ser(p,x):
    if p[0]=='span': return f'{x}.toJson'
    if p[0]=='bool': return f'.bool {x}'
    if p[0]=='string': return f'.str {x}'
    if p[0]=='char': return f'.str [{x}]'
    if p[0]=='opt':
        need(p)
        if rec(p): return f'ser{hname(p)} {x}'
        return f'serOpt ({ser0(p[1])}) {x}'
    if p[0]=='vec':
        need(p)
        if rec(p): return f'.arr (ser{hname(p)} {x})'
        return f'.arr ({x}.map ({ser0(p[1])}))' if p[1][0]!='opt' else 1/0
    if p==('struct','LitNumber'): return f'.obj [(c!"raw", .str {x})]'
    if p[0]=='struct' and p[1] in('LitTemplate','LitArray','LitObject'):
        n,t=structs[p[1]]['fields'][0]
        return f'.obj [(c!"{n}", {ser(parse(t),x)})]'
    if p==('struct','Super'): return f'.obj [(c!"span", {x}.toJson)]'
    if p==('enum','ClassElement'): return f'.obj [(c!"Method", {x}.toJson)]'
    return f'{x}.toJson'
def ser0(p):
    if p[0]=='vec': return f'fun l => {ser(p,"l")}'
    return f'fun x => {ser(p,"x")}'
def objof(s,xs): # json of struct s with lean exprs xs for the fields
    return '.obj ['+', '.join(f'(c!"{n}", {ser(parse(t),x)})' for (n,t),x in zip(structs[s]['fields'],xs))+']'
def xs(n): return [f'x{i+1}' for i in range(n)]
def sercases(lt):
    k,r=rust_of[lt]; out=[]
    if k=='struct':
        fs=structs[r]['fields']; v=xs(len(fs)); out.append(('mk',v,objof(r,v)))
    else:
        for c,(vn,p) in zip(ENUM[lt and r][1].split(),enums[r]['variants']):
            if p is None: out.append((c,[],f'.str c!"{vn}"'))
            else:
                pp=parse(p)
                if pp[0]=='struct' and pp[1] in INL:
                    fs=structs[pp[1]]['fields']; v=xs(len(fs)); out.append((c,v,f'.obj [(c!"{vn}", {objof(pp[1],v)})]'))
                else: out.append((c,['x1'],f'.obj [(c!"{vn}", {ser(pp,"x1")})]'))
    return out
KW={'char':0}
M=[]
w=M.append
w('''import Verif.Model.Ast
import Verif.Model.SpanSerde
/-!
# Serialising and deserialising trees (`/repo/ast/src`, the serde derives of `/repo/ast/src/macros/mod.rs:69-80`)

Every type of the tree derives `serde::Serialize` and `serde::Deserialize`; `Span` has implementations of its own
(`Verif.Model.SpanSerde`).  This file was written by `tools/gen_serde.py` from the declarations in `/repo/ast/src`.

Modelled: the values of the serde data model that arise (`Json`, objects as lists of fields in order), the derived serialisers
(`toJson`: structs as objects with their fields in order, variants as `{"Variant": content}`, unit variants as strings), and the
derived deserialisers driven by a self-describing format such as JSON (`decode`): fields in any order, unknown fields skipped,
duplicate fields refused, missing fields refused except for those of type `Option`, structs also as arrays, unit variants as
strings or as `{"Variant": null}`.

Not modelled: the text of JSON (serde_json) and the messages of serde's errors (the message is empty here, except for that of
`Span`).  `Box` is transparent.  As in `Verif.Model.Ast`, structs that occur in one variant only are part of the variant.
-/
namespace Fajt

set_option genSizeOf false in
/-- Values of the serde data model that arise from trees: there are no numbers, spans are written as strings. -/
inductive Json where
  | null
  | bool (b : Bool)
  | str (s : Str)
  | arr (vs : List Json)
  | obj (fields : List (Str × Json))

/-- `/repo/ast/src/span.rs:32-39` `Serialize for Span`. -/
def Span.toJson (s : Span) : Json := .str s.serialize

/-- Options: `null`, or the content. -/
def serOpt {α : Type} (f : α → Json) : Option α → Json
  | none => .null
  | some a => f a
''')
for s in ['Ident','LitString','NamedImport','NamedExport']:
    d=structs[s]; lt=SA[s][0]
    leanf={'Ident':['span','name'],'LitString':['value','delimiter'],'NamedImport':['span','name','alias'],'NamedExport':['span','name','aliasOf']}[s]
    w(f'/-- `{d["loc"]}` `{s}`, derived `Serialize`. -/\ndef {lt}.toJson (x : {lt}) : Json :=\n  {objof(s,["x."+f for f in leanf])}\n')
for e in ['BinaryOperator','LogicalOperator','UnaryOperator','UpdateOperator','AssignmentOperator','VariableKind','MethodKind']:
    d=enums[e]; lt,cs=ENUM[e]
    w(f'/-- `{d["loc"]}` `{e}`, derived `Serialize`. -/\ndef {lt}.toJson : {lt} → Json')
    for c,(vn,_) in zip(cs.split(),d['variants']): w(f'  | .{c} => .str c!"{vn}"')
    w('')
w('mutual\n')
bodies=[]
for lt in MUT:
    k,r=rust_of[lt]; d=(structs if k=='struct' else enums)[r]
    inl=[structs[p]['loc'].split('/')[-1] for v,p in (d['variants'] if k=='enum' else []) if p in INL]
    o=f'/-- `{d["loc"]}` `{r}`, derived `Serialize`'+(f' (with the structs of the variants: {", ".join(inl)})' if inl else '')+f'. -/\ndef {lt}.toJson : {lt} → Json\n'
    for c,v,b in sercases(lt): o+=f'  | .{c}{"".join(" "+x for x in v)} => {b}\n'
    o+='termination_by structural x => x\n'
    bodies.append(o)
HN=sorted(helpers)
def hl(p):
    k,e=p
    if k=='opt':
        return f'Option {sem(e)}','Json','none => .null',f'some x => {ser(e,"x")}'
    return f'List ({sem(e)})','List Json','[] => []',f'x :: l => {"("+ser(e,"x")+")" if False else ser(e,"x")} :: ser{hname(p)} l'
for h in HN:
    p=helpers[h]; a,b,c0,c1=hl(p)
    bodies.append(f'/-- {"`Option`" if p[0]=="opt" else "The elements of a `Vec`"}, derived `Serialize`. -/\ndef ser{h} : {a} → {b}\n  | {c0}\n  | {c1}\ntermination_by structural x => x\n')
w('\n'.join(bodies)); w('end\n')
d=enums['Program']
w(f'/-- `{d["loc"]}` `Program` and `{structs["StmtList"]["loc"]}` `StmtList<Stmt>`, derived `Serialize`. -/\ndef Program.toJson (p : Program) : Json :=\n  .obj [(match p.sourceType with | .script => c!"Script" | .module => c!"Module",\n    {objof("StmtList",["p.span","p.directives","p.body"])})]\n')
w('/-! ## Deserialising -/\n')
w('''/-- Sequencing of deserialisers: errors and panics stop. -/
def Deser.bind {α β : Type} (x : Deser α) (f : α → Deser β) : Deser β :=
  match x with
  | .ok a => f a
  | .err m => .err m
  | .panic => .panic

/-- The result under a function. -/
def Deser.map {α β : Type} (f : α → β) (x : Deser α) : Deser β := x.bind fun a => .ok (f a)
''')
w('/-- The structs of `/repo/ast/src` with derived serde implementations. -/\ninductive StructTy where')
SN=[s for s in order if s in structs]; EN=[e for e in order if e in enums]
for s in SN: w(f'  /-- `{structs[s]["loc"]}` -/\n  | {s}')
w('deriving DecidableEq\n')
w('/-- The enums of `/repo/ast/src` with derived serde implementations. -/\ninductive EnumTy where')
for s in EN: w(f'  /-- `{enums[s]["loc"]}` -/\n  | {s}')
w('deriving DecidableEq\n')
w('''/-- The types of the fields of the tree; `unit` is the type of the content of a unit variant. -/
inductive Ty where
  | unit | bool | string | char | span
  | opt (t : Ty)
  | vec (t : Ty)
  | struct (s : StructTy)
  | enum (e : EnumTy)
deriving DecidableEq

/-- The type of the model for a struct: for a struct that is part of a variant, the type of the variant. -/
@[reducible] def StructTy.sem : StructTy → Type''')
def full(t): return re.sub(r'\b(?!List\b|Option\b)([A-Z]\w+)',r'Fajt.\1',t)
for s in SN: w(f'  | .{s} => {full(sem(("struct",s)))}')
w('\n/-- The type of the model for an enum. -/\n@[reducible] def EnumTy.sem : EnumTy → Type')
for s in EN: w(f'  | .{s} => {full(sem(("enum",s)))}')
w('''
/-- The type of the model for a type. -/
@[reducible] def Ty.sem : Ty → Type
  | .unit => Unit
  | .bool => Bool
  | .string => Str
  | .char => Char
  | .span => Span
  | .opt t => Option t.sem
  | .vec t => List t.sem
  | .struct s => s.sem
  | .enum e => e.sem

/-- The values of the fields of a struct. -/
@[reducible] def Row : List (Str × Ty) → Type
  | [] => Unit
  | f :: fs => f.2.sem × Row fs

/-- The fields of a struct that have been read. -/
@[reducible] def Slots : List (Str × Ty) → Type
  | [] => Unit
  | f :: fs => Option f.2.sem × Slots fs

/-- The fields of the structs, see `StructTy` for the lines. -/
@[reducible] def StructTy.fields : StructTy → List (Str × Ty)''')
for s in SN: w(f'  | .{s} => ['+', '.join(f'(c!"{n}", {ty(parse(t))})' for n,t in structs[s]['fields'])+']')
w('\n/-- The struct with these fields. -/\ndef StructTy.build : (s : StructTy) → Row s.fields → s.sem')
for s in SN:
    fs=structs[s]['fields']; v=xs(len(fs))
    if s in SA:
        b=(SA[s][1] or '.mk '+' '.join('{%d}'%i for i in range(len(fs)))).format(*v)
    else: b=f'.{INL[s][1]} '+' '.join(v)
    w(f'  | .{s}, ({", ".join(v)}, ()) => {b}')
w('''
/-- A variant of an enum: without content, or with content of a type. -/
inductive Variant (α : Type) where
  | unit (a : α)
  | new (t : Ty) (f : t.sem → α)

/-- The variants of the enums, see `EnumTy` for the lines. -/
def EnumTy.variants : (e : EnumTy) → List (Str × Variant e.sem)''')
for e in EN:
    rows=[]
    if e=='ClassElement': rows=['(c!"Method", .new (.struct .MethodDefinition) id)']
    elif e=='Program': rows=['(c!"Script", .new (.struct .StmtList) fun (s, d, b) => ⟨.script, s, d, b⟩)','(c!"Module", .new (.struct .StmtList) fun (s, d, b) => ⟨.module, s, d, b⟩)']
    else:
        for c,(vn,p) in zip(ENUM[e][1].split(),enums[e]['variants']):
            if p is None: rows.append(f'(c!"{vn}", .unit .{c})')
            else:
                pp=parse(p)
                if pp[0]=='struct' and pp[1] in INL: rows.append(f'(c!"{vn}", .new ({ty(pp)}) id)')
                else: rows.append(f'(c!"{vn}", .new ({ty(pp)}) .{c})' if len(pp)>1 else f'(c!"{vn}", .new {ty(pp)} .{c})')
    w(f'  | .{e} => ['+', '.join(rows)+']')
w('''
/-- The result of deserialising a value as a value of any type. -/
abbrev DeserAs := (t : Ty) → Deser t.sem

/-- The derived `visit_map`: the field of this name is read, unless it has been read before; other fields are skipped. -/
def putField (k : Str) (o : DeserAs) : (fs : List (Str × Ty)) → Slots fs → Deser (Slots fs)
  | [], u => .ok u
  | f :: fs, (a, r) =>
    if k = f.1 then
      match a with
      | some _ => .err []
      | none => (o f.2).map fun x => (some x, r)
    else (putField k o fs r).map fun r' => (a, r')

/-- The derived `visit_map`: the fields in order. -/
def putFields (fs : List (Str × Ty)) : List (Str × DeserAs) → Slots fs → Deser (Slots fs)
  | [], s => .ok s
  | (k, o) :: kvs, s => (putField k o fs s).bind (putFields fs kvs)

/-- A field that was not read: only an `Option` may be missing. -/
def missing : (t : Ty) → Deser t.sem
  | .opt _ => .ok none
  | _ => .err []

/-- The end of the derived `visit_map`. -/
def finish : (fs : List (Str × Ty)) → Slots fs → Deser (Row fs)
  | [], _ => .ok ()
  | f :: fs, (a, r) =>
    (match a with
     | some x => Deser.ok x
     | none => missing f.2).bind fun x => (finish fs r).map fun r' => (x, r')

/-- No field has been read. -/
def emptySlots : (fs : List (Str × Ty)) → Slots fs
  | [] => ()
  | _ :: fs => (none, emptySlots fs)

/-- The derived `visit_seq`: the fields in order, neither fewer nor more. -/
def visitSeq : (fs : List (Str × Ty)) → List DeserAs → Deser (Row fs)
  | [], [] => .ok ()
  | [], _ :: _ => .err []
  | _ :: _, [] => .err []
  | f :: fs, o :: os => (o f.2).bind fun x => (visitSeq fs os).map fun r => (x, r)

/-- The elements of a `Vec`. -/
def visitElems (t : Ty) : List DeserAs → Deser (List t.sem)
  | [] => .ok []
  | o :: os => (o t).bind fun x => (visitElems t os).map fun l => x :: l

/-- The variant of this name. -/
def variantOf (e : EnumTy) (k : Str) : Option (Variant e.sem) := (e.variants.find? (fun v => v.1 == k)).map Prod.snd

/-- `null` as a value of a type. -/
def decodeNull : (t : Ty) → Deser t.sem
  | .unit => .ok ()
  | .opt _ => .ok none
  | _ => .err []

/-- A boolean as a value of a type. -/
def decodeBool (b : Bool) : (t : Ty) → Deser t.sem
  | .bool => .ok b
  | .opt t => (decodeBool b t).map some
  | _ => .err []

/-- A string as a value of a type: a text, a character, a span, a unit variant. -/
def decodeStr (s : Str) : (t : Ty) → Deser t.sem
  | .string => .ok s
  | .char =>
    match s with
    | [c] => .ok c
    | _ => .err []
  | .span => Span.deserialize s
  | .enum e =>
    match variantOf e s with
    | some (.unit a) => .ok a
    | _ => .err []
  | .opt t => (decodeStr s t).map some
  | _ => .err []

/-- An array as a value of a type. -/
def decodeArr (os : List DeserAs) : (t : Ty) → Deser t.sem
  | .vec t => visitElems t os
  | .struct s => (visitSeq s.fields os).map s.build
  | .opt t => (decodeArr os t).map some
  | _ => .err []

/-- An object as a value of a type: a struct, or a variant with content. -/
def decodeObj (kvs : List (Str × DeserAs)) : (t : Ty) → Deser t.sem
  | .struct s => ((putFields s.fields kvs (emptySlots s.fields)).bind (finish s.fields)).map s.build
  | .enum e =>
    match kvs with
    | [] => .err []
    | (k, o) :: rest =>
      (match variantOf e k with
       | some (.unit a) => (o .unit).map fun _ => a
       | some (.new t f) => (o t).map f
       | none => .err []).bind fun a => if rest.isEmpty then .ok a else .err []
  | .opt t => (decodeObj kvs t).map some
  | _ => .err []

mutual

/-- Deserialising: the value `j` as a value of any type. -/
def decode : Json → DeserAs
  | .null => decodeNull
  | .bool b => decodeBool b
  | .str s => decodeStr s
  | .arr vs => decodeArr (decodes vs)
  | .obj kvs => decodeObj (decodeFields kvs)
termination_by structural x => x

/-- The elements of an array. -/
def decodes : List Json → List DeserAs
  | [] => []
  | v :: vs => decode v :: decodes vs
termination_by structural x => x

/-- The fields of an object. -/
def decodeFields : List (Str × Json) → List (Str × DeserAs)
  | [] => []
  | kv :: kvs => decodeField kv :: decodeFields kvs
termination_by structural x => x

/-- A field of an object. -/
def decodeField : Str × Json → Str × DeserAs
  | (k, v) => (k, decode v)
termination_by structural x => x

end

/-- Deserialising a program, e.g. `serde_json::from_str::<Program>`. -/
def Program.fromJson (j : Json) : Deser Program := decode j (.enum .Program)

end Fajt''')
open(OUT+'Model/Serde.lean','w').write('\n'.join(M)+'\n')

# ---------------------------------------------------------------- AllSpans
def nxt(x): return 'z' if x=='y' else 'y'
def alls(p,x):
    if p[0]=='span': return f'P {x}'
    if p[0] in('bool','string','char') or p in(('struct','LitString'),('struct','LitNumber')): return None
    if p[0]=='enum' and p[1] in enums and sem(p) not in MUT: return None
    if p[0]=='opt':
        if rec(p): return f'all{hname(p)} P {x}'
        y=nxt(x); i=alls(p[1],y); return None if i is None else f'(∀ {y} ∈ {x}, {i})'
    if p[0]=='vec':
        if rec(p): return f'all{hname(p)} P {x}'
        y=nxt(x); i=alls(p[1],y); return None if i is None else f'(∀ {y} ∈ {x}, {i})'
    if p[0]=='struct' and p[1] in('LitTemplate','LitArray','LitObject'): return alls(parse(structs[p[1]]['fields'][0][1]),x)
    if p==('struct','Super'): return f'P {x}'
    return f'{x}.AllSpans P'
A=[]; w=A.append
w('''import Verif.Model.Ast
/-!
# The spans of a tree

`AllSpans P` says that every span of a tree has the property `P`.  Written by `tools/gen_serde.py`.
-/
namespace Fajt

/-- The span of an identifier. -/
def Ident.AllSpans (P : Span → Prop) (x : Ident) : Prop := P x.span

/-- The spans of a named import. -/
def NamedImport.AllSpans (P : Span → Prop) (x : NamedImport) : Prop := P x.span ∧ x.name.AllSpans P ∧ ∀ y ∈ x.alias, y.AllSpans P

/-- The spans of a named export. -/
def NamedExport.AllSpans (P : Span → Prop) (x : NamedExport) : Prop := P x.span ∧ x.name.AllSpans P ∧ ∀ y ∈ x.aliasOf, y.AllSpans P

mutual
''')
def conj(l): return ' ∧ '.join(l) if l else 'True'
def casefields(lt):
    """(ctor, [(var, parsed type)], rust struct inlined or None, variant name)"""
    k,r=rust_of[lt]; out=[]
    if k=='struct': return [('mk',[parse(t) for _,t in structs[r]['fields']],r,None)]
    for c,(vn,p) in zip(ENUM[r][1].split(),enums[r]['variants']):
        if p is None: out.append((c,[],None,vn))
        else:
            pp=parse(p)
            if pp[0]=='struct' and pp[1] in INL: out.append((c,[parse(t) for _,t in structs[pp[1]]['fields']],pp[1],vn))
            else: out.append((c,[pp],None,vn))
    return out
for lt in MUT:
    w(f'/-- Every span of such a node has the property. -/\ndef {lt}.AllSpans (P : Span → Prop) : {lt} → Prop')
    for c,ps,_,_ in casefields(lt):
        v=xs(len(ps)); a=[alls(p,x) for p,x in zip(ps,v)]
        w(f'  | .{c}{"".join(" "+(x if a[i] else "_") for i,x in enumerate(v))} => {conj([y for y in a if y])}')
    w('termination_by structural x => x\n')
for h in HN:
    p=helpers[h]; e=p[1]; i=alls(e,'x')
    if p[0]=='opt': w(f'/-- Every span of an optional node has the property. -/\ndef all{h} (P : Span → Prop) : Option {sem(e)} → Prop\n  | none => True\n  | some x => {i}\ntermination_by structural x => x\n')
    else: w(f'/-- Every span of a list of nodes has the property. -/\ndef all{h} (P : Span → Prop) : List ({sem(e)}) → Prop\n  | [] => True\n  | x :: l => {i} ∧ all{h} P l\ntermination_by structural x => x\n')
w('''end

/-- Every span of a program has the property. -/
def Program.AllSpans (P : Span → Prop) (p : Program) : Prop := P p.span ∧ allStmts P p.body

end Fajt''')
open(OUT+'Spec/AllSpans.lean','w').write('\n'.join(A)+'\n')

# ---------------------------------------------------------------- proofs
T=[]; w=T.append
w('''import Verif.Spec.AllSpans
import Verif.Proofs.SerdeBase
/-!
# Deserialising what was serialised

Written by `tools/gen_serde.py`.
-/
set_option linter.unusedVariables false
namespace Fajt
open Serde

''')
def trip(p,x,h):
    """proof of decode (ser x) ty = ok x; h: proof of alls or None"""
    if p[0]=='span': return f'(span_trip {h})'
    if p[0]=='bool': return 'rfl'
    if p[0]=='string': return 'rfl'
    if p[0]=='char': return 'rfl'
    if p==('struct','LitString'): return f'(litString_trip {x})'
    if p==('struct','LitNumber'): return f'(number_trip {x})'
    if p==('struct','Super'): return f'(super_trip {h})'
    if p==('enum','ClassElement'): return f'(class_trip {x} ({x}.trip {h}))'
    if p[0]=='struct' and p[1] in('LitTemplate','LitArray','LitObject'):
        ip=parse(structs[p[1]]['fields'][0][1])
        return f'(struct_ok (s := .{p[1]}) (r := ({x}, ())) (.cons {trip(ip,x,h)} .nil) (by decide))'
    if p[0]=='opt':
        if rec(p): return f'(trip{hname(p)} {x} {h})'
        if p[1]==('struct','Ident'): return f'(optIdent_trip {x} {h})'
        if p[1]==('span',): return f'(optSpan_trip {x} {h})'
        if p[1]==('struct','LitString'): return f'(optLitString_trip {x})'
        if p[1]==('vec',('struct','NamedImport')): return f'(optImports_trip {x} {h})'
        assert 0,p
    if p[0]=='vec':
        if rec(p): return f'(arr_trip (trip{hname(p)} {x} {h}))'
        if p[1]==('struct','LitString'): return f'(litStrings_trip {x})'
        if p[1]==('struct','NamedExport'): return f'(exports_trip {x} {h})'
        assert 0,p
    if p[0]=='enum' and sem(p) not in MUT: return f'({x}.trip)'
    return f'({x}.trip {h})'
def projs(n):
    # projections for a right nested conjunction of n parts
    if n==0: return []
    if n==1: return ['h']
    return ['h'+'.2'*i+('.1' if i<n-1 else '') for i in range(n)]
w('mutual\n')
for lt in MUT:
    k,r=rust_of[lt]
    w(f'theorem {lt}.trip : (x : {lt}) → x.AllSpans Small → decode x.toJson (.{k} .{r}) = .ok x')
    for c,ps,inl,vn in casefields(lt):
        v=xs(len(ps)); a=[alls(p,x) for p,x in zip(ps,v)]
        pr=iter(projs(len([y for y in a if y])))
        hs=[next(pr) if y else None for y in a]
        pf=[trip(p,x,h) for p,x,h in zip(ps,v,hs)]
        row='('+', '.join(v+['()'])+')'
        chain='.nil'
        for q_ in reversed(pf): chain=f'(.cons {q_} {chain})'
        head=f'  | .{c}{"".join(" "+x for x in v)}, h => '
        dec='by decide'
        if k=='struct': body=f'struct_ok (s := .{inl}) (r := {row}) {chain} ({dec})'
        elif vn and not ps: body=f'unit_ok (e := .{r}) rfl'
        elif inl: body=f'new_ok (e := .{r}) (k := c!"{vn}") (t := .struct .{inl}) (f := id) rfl (struct_ok (s := .{inl}) (r := {row}) {chain} ({dec}))'
        else: body=f'new_ok (e := .{r}) (k := c!"{vn}") (t := {ty(ps[0])}) (f := .{c}) rfl {pf[0]}'
        w(head+body)
    w('termination_by structural x => x\n')
for h in HN:
    p=helpers[h]; e=p[1]
    if p[0]=='opt':
        w(f'theorem trip{h} : (x : Option {sem(e)}) → all{h} Small x → decode (ser{h} x) ({ty(p)}) = .ok x\n  | none, _ => rfl\n  | some x, h => some_ok {trip(e,"x","h")}\ntermination_by structural x => x\n')
    else:
        w(f'theorem trip{h} : (x : List ({sem(e)})) → all{h} Small x → Each ({ty(e)}) (ser{h} x) x\n  | [], _ => .nil\n  | x :: l, h => .cons {trip(e,"x","h.1")} (trip{h} l h.2)\ntermination_by structural x => x\n')
w('end\n\nend Fajt')
open(OUT+'Proofs/SerdeTrip.lean','w').write('\n'.join(T)+'\n')
print(len(SN),'structs',len(EN),'enums',HN)
