#!/usr/bin/env python3
"""Writes lean/Verif/Model/Mutate.lean and lean/Verif/Spec/TreeMaps.lean from the declarations in /repo/ast/src and the table in
/repo/ast/src/traverse/mod.rs."""
from astdecl import *
t=open('/repo/ast/src/traverse/mod.rs').read()
i0=t.index('generate_fold_and_visit! {'); body=t[i0:]; base=t[:i0].count('\n')
rows=[]
for m in re.finditer(r'(\w+)(?:<Stmt>)?:\s*\(enter: (\w+), exit: (\w+)\)\s*\{([^}]*)\}',body):
    l0=base+body.count('\n',0,m.start())+1; l1=base+body.count('\n',0,m.end())+1
    rows.append((m.group(1),m.group(2),m.group(3),re.sub(r'//.*','',m.group(4)).split(),l0,l1))
def kn(r): return r[0].lower()+r[1:]
def full(t): return re.sub(r'\b(?!List\b|Option\b|Bool\b|Char\b)([A-Z]\w+)',r'Fajt.\1',t)
def tysem(p):
    """Lean type of a field"""
    if p[0]=='opt': return f'Option ({tysem(p[1])})'
    if p[0]=='vec': return f'List ({tysem(p[1])})'
    return sem(p)
def val(r):
    if r in enums: return sem(('enum',r))
    if r in SA: return SA[r][0]
    return ' × '.join(sem(parse(t)) for _,t in structs[r]['fields'])
def fix(s): return s
def xs(n): return [f'x{i+1}' for i in range(n)]
def tup(v): return '('+', '.join(v)+')' if len(v)>1 else v[0]
def go(p):
    """what to do for a field, and the kind of the visited nodes"""
    if p[0]=='opt': return ('optList',kn(p[1][1][1])) if p[1][0]=='vec' else ('opt',kn(p[1][1]))
    if p[0]=='vec': return ('listOpt',kn(p[1][1][1])) if p[1][0]=='opt' else ('list',kn(p[1][1]))
    return ('visit',kn(p[1]))
def mk(r,v):
    if r in SA: return (SA[r][1] or '.mk '+' '.join('{%d}'%i for i in range(len(v)))).format(*v)
    return tup(v)
def pat(r,v):
    return mk(r,v)
M=[]; w=M.append
w('''import Verif.Model.Ast
/-!
# Visitors that change the nodes they visit (`/repo/ast/src/traverse/mod.rs`, `/repo/ast/src/traverse/macros.rs`)

The hooks of a `Visitor` get a `&mut` reference to the node, and can replace it.  Here a hook returns the new node.  This file
was written by `tools/gen_mutate.py` from the declarations in `/repo/ast/src` and the table in `traverse/mod.rs:33-539`.

The traversal of a replaced node need not end (a hook can grow the tree while it is traversed), so that `traverse` has a bound on
the depth of the recursion: `none` means that the recursion is deeper than that.

Simplification: `Box` is dropped, `Vec` is `List`, as in `Verif.Model.Ast`.  A struct that is inlined there is a tuple here.
-/
namespace Fajt

/-- The types for which the macro generates an implementation of `Traverse` and hooks: the rows of the table. -/
inductive Kind where''')
for r,a,b,_,l0,l1 in rows: w(f'  /-- mod.rs:{l0}-{l1}, `{a}`, `{b}` -/\n  | {kn(r)}')
w('deriving DecidableEq, Repr\n')
w('/-- The values of these types. -/\n@[reducible] def Kind.Val : Kind → Type')
for r,*_ in rows: w(f'  | .{kn(r)} => {full(val(r))}')
w('''
/-- What the traversal of the children of a node does: visit one after the other, and put the results in their places. -/
inductive Plan (α : Type) : Type where
  | ret (a : α)
  | visit (k : Kind) (x : k.Val) (next : k.Val → Plan α)

/-- `/repo/ast/src/traverse/mod.rs:22-28` `Traverse for Option<F>`, followed by `next`. -/
def Plan.opt {α : Type} (k : Kind) (x : Option k.Val) (next : Option k.Val → Plan α) : Plan α :=
  match x with
  | none => next none
  | some a => .visit k a fun a => next (some a)

/-- `/repo/ast/src/traverse/mod.rs:10-14` `Traverse for Vec<F>`, followed by `next`. -/
def Plan.list {α : Type} (k : Kind) (l : List k.Val) (next : List k.Val → Plan α) : Plan α :=
  match l with
  | [] => next []
  | a :: as => .visit k a fun a => Plan.list k as fun as => next (a :: as)

/-- The same for `Vec<Option<F>>`. -/
def Plan.listOpt {α : Type} (k : Kind) (l : List (Option k.Val)) (next : List (Option k.Val) → Plan α) : Plan α :=
  match l with
  | [] => next []
  | a :: as => .opt k a fun a => Plan.listOpt k as fun as => next (a :: as)

/-- The same for `Option<Vec<F>>`. -/
def Plan.optList {α : Type} (k : Kind) (x : Option (List k.Val)) (next : Option (List k.Val) → Plan α) : Plan α :=
  match x with
  | none => next none
  | some l => .list k l fun l => next (some l)

/-- The children of the nodes, as listed in the table `/repo/ast/src/traverse/mod.rs:33-539`; the variants that are not listed
have no children (`macros.rs:33-34`). -/
def plan : (k : Kind) → k.Val → Plan k.Val''')
CT=[]
for r,a,b,items,l0,l1 in rows:
    k=kn(r)
    w(f'  -- mod.rs:{l0}-{l1}')
    if r=='Program':
        assert items==['Script','Module']
        w('  | .program, ⟨st, x1, x2, x3⟩ => Plan.visit .stmtList (x1, x2, x3) fun (x1, x2, x3) => .ret ⟨st, x1, x2, x3⟩')
    elif r=='ClassElement':
        w('  | .classElement, x => .visit .methodDefinition x .ret')
    elif r in enums:
        if not items:
            w(f'  | .{k}, x => .ret x'); continue
        for c,(vn,p) in zip(ENUM[r][1].split(),enums[r]['variants']):
            if p is None:
                assert vn not in items; w(f'  | .{k}, .{c} => .ret .{c}'); continue
            pp=parse(p)
            if pp[0]=='struct' and pp[1] in INL: v=xs(len(structs[pp[1]]['fields']))
            else: v=['x1']
            cv=f'.{c} '+' '.join(v)
            if vn not in items: w(f'  | .{k}, {cv} => .ret ({cv})')
            else: w(f'  | .{k}, {cv} => .visit .{kn(pp[1])} {tup(v)} fun {tup(v)} => .ret ({cv})')
    else:
        fs=structs[r]['fields']
        if not items: w(f'  | .{k}, x => .ret x'); continue
        v=xs(len(fs)); names=[n for n,_ in fs]
        body=f'.ret {mk(r,v) if mk(r,v)[0] in "(⟨x" else "("+mk(r,v)+")"}'
        for it in reversed(items):
            i=names.index(it); h,k1=go(parse(fs[i][1])); body=f'.{h} .{k1} {v[i]} fun {v[i]} => {body}'
        w(f'  | .{k}, {pat(r,v)} => {body}')
w('''
/-- `/repo/ast/src/traverse/macros.rs:60-75` `trait Visitor`, with a state `σ`: hooks get a node and return it, changed or not;
enter hooks also tell whether the children are to be traversed. -/
structure MVisitor (σ : Type) where
  enter : (k : Kind) → k.Val → σ → Bool × k.Val × σ
  exit : (k : Kind) → k.Val → σ → k.Val × σ

/-- Carry out a plan. -/
def Plan.run {σ α : Type} (tr : (k : Kind) → k.Val → σ → Option (k.Val × σ)) : Plan α → σ → Option (α × σ)
  | .ret a, s => some (a, s)
  | .visit k x c, s =>
    match tr k x s with
    | some (y, s) => (c y).run tr s
    | none => none

/-- `/repo/ast/src/traverse/macros.rs:26-39,45-55`, the bodies of the generated `traverse` methods: the enter hook, the children of
the node as it is after that, the exit hook. -/
def MVisitor.traverse {σ : Type} (v : MVisitor σ) : Nat → (k : Kind) → k.Val → σ → Option (k.Val × σ)
  | 0, _, _, _ => none
  | n + 1, k, a, s =>
    match v.enter k a s with
    | (true, a, s) =>
      match (plan k a).run (v.traverse n) s with
      | some (a, s) => some (v.exit k a s)
      | none => none
    | (false, a, s) => some (v.exit k a s)

end Fajt''')
open(OUT+'Model/Mutate.lean','w').write('\n'.join(M)+'\n')

# ---------------------------------------------------------------- Spec/TreeMaps.lean
LEAF={('struct','Ident'):'ident',('struct','LitString'):'string',('struct','LitNumber'):'number',('enum','BinaryOperator'):'binaryOp',('enum','LogicalOperator'):'logicalOp',
 ('enum','AssignmentOperator'):'assignOp',('enum','UnaryOperator'):'unaryOp',('enum','UpdateOperator'):'updateOp'}
LISTS=('LitTemplate','LitArray','LitObject')
HELP={}
class Op: pass
def helper(p,op):
    HELP[hname(p)]=p
    if p[1][0] in('opt','vec') and rec(p[1]): helper(p[1],op)
    return f'{op.pre}{hname(p)}{op.args}'
def fld(p,x,op):
    """expression for field x of type p, or None if the operation ignores it"""
    if p in LEAF or p==('struct','Super'): return op.leaf(p,x)
    if p[0] in('span','bool','string','char') or p in(('enum','MethodKind'),('enum','VariableKind')): return op.none(x)
    if p[0]=='struct' and p[1] in LISTS: return op.wrap(fld(parse(structs[p[1]]['fields'][0][1]),x,op))
    if p[0] in('opt','vec'):
        if rec(p): return f'{helper(p,op)} {x}'
        f=fld(p[1],'y',op)
        if f is None or f=='y': return op.none(x)
        return op.over(p[0],f,x) if op.over else szover(p,x)
    if p[0]=='enum' and p[1]=='ClassElement': return op.cls(x)
    return f'{x}.{op.name}{op.args}'
def rowsof(lt):
    """(constructor, variables, field types, inlined?, rust payload)"""
    k,r=rust_of[lt]
    if k=='struct': 
        fs=[parse(t) for _,t in structs[r]['fields']]; return [('mk',xs(len(fs)),fs,None)]
    out=[]
    for c,(vn,p) in zip(ENUM[r][1].split(),enums[r]['variants']):
        if p is None: out.append((c,[],[],None)); continue
        pp=parse(p)
        if pp[0]=='struct' and pp[1] in INL:
            fs=[parse(t) for _,t in structs[pp[1]]['fields']]; out.append((c,xs(len(fs)),fs,pp[1]))
        else: out.append((c,['x1'],[pp],None))
    return out
def family(op,doc):
    global HELP
    HELP={}
    o='mutual\n'
    for lt in MUT:
        o+=f'\n/-- {doc} -/\ndef {lt}.{op.name}{op.sig} : {lt} → {op.ty(lt)}\n'
        for c,v,fs,inl in rowsof(lt):
            e=op.special.get((lt,c)) or op.build(lt,c,v,[fld(p,x,op) for p,x in zip(fs,v)],inl)
            used=set(re.findall(r'x\d+',e))
            vv=[x if x in used else '_' for x in v]
            o+=f'  | .{c}{"".join(" "+x for x in vv)} => {e}\n'
        o+='termination_by structural x => x\n'
    for h in sorted(HELP):
        p=HELP[h]; e=p[1]
        st=f'Option ({sem(e)})' if p[0]=='opt' else f'List ({sem(e)})'
        x=fld(e,'x',op)
        o+=f'\n/-- {doc} -/\ndef {op.pre}{h}{op.sig} : {st} → {op.lty(st)}\n'
        if p[0]=='opt': o+=f'  | none => {op.n0}\n  | some x => {op.some(x)}\n'
        else: o+=f'  | [] => {op.l0}\n  | x :: l => {op.cons(x,f"{op.pre}{h}{op.args} l")}\n'
        o+='termination_by structural x => x\n'
    o+='\nend\n'
    return o
def kfam(op):
    o=''
    for r,*_ in rows:
        k=kn(r)
        if r=='Program':
            e=op.prog; o+=f'  | .{k}, x => {e}\n'; continue
        if r=='ClassElement': o+=f'  | .{k}, x => {op.cls("x")}\n'; continue
        p=('enum',r) if r in enums and r!='LitNumber' else ('struct',r)
        if r in SA or r in enums:
            if r=='StmtList':
                v=xs(3); fs=[parse(t) for _,t in structs[r]['fields']]
                o+=f'  | .{k}, (x1, x2, x3) => {op.tuple(v,[fld(q,x,op) for q,x in zip(fs,v)])}\n'
            else: o+=f'  | .{k}, x => {fld(p,"x",op) or "x"}\n'
        else:
            fs=[parse(t) for _,t in structs[r]['fields']]; v=xs(len(fs))
            lt,c=INL[r]
            e=op.kspecial.get(r) or op.tuple(v,[fld(q,x,op) for q,x in zip(fs,v)])
            used=set(re.findall(r'x\d+',e)); vv=[x if x in used else '_' for x in v]
            o+=f'  | .{k}, {tup(vv)} => {e}\n'
    return o
S=[]; w=S.append
w('''import Verif.Model.Mutate
/-!
# Sizes of trees, and changing the leaves of a tree

`size` counts the nodes of a tree; `mapLeaves` changes the identifiers, strings, numbers and operators of a tree, wherever they
are; `mapReached` changes those that are reached by a traversal, as often as they are reached; `Plain` says that there is none
of the constructs whose children are not traversed exactly once (C42).  Written by `tools/gen_mutate.py`.
-/
namespace Fajt

set_option linter.unusedVariables false

/-- Sum over an option. -/
def optSum {α : Type} (f : α → Nat) : Option α → Nat
  | none => 0
  | some a => f a

/-- Sum over a list. -/
def listSum {α : Type} (f : α → Nat) : List α → Nat
  | [] => 0
  | a :: as => f a + listSum f as

/-- An identifier is one node. -/
def Ident.size (_ : Ident) : Nat := 1

/-- A string is one node. -/
def LitString.size (_ : LitString) : Nat := 1

/-- The number of nodes of a named import. -/
def NamedImport.size (x : NamedImport) : Nat := 1 + x.name.size + optSum Ident.size x.alias

/-- The number of nodes of a named export. -/
def NamedExport.size (x : NamedExport) : Nat := 1 + x.name.size + optSum Ident.size x.aliasOf
''')
sz=Op(); sz.name='size'; sz.sig=''; sz.args=''; sz.pre='size'; sz.special={}; sz.kspecial={}
sz.leaf=lambda p,x:f'{x}.size' if p[1] in('Ident','LitString') else '1'; sz.none=lambda x:None; sz.ty=lambda t:'Nat'; sz.lty=sz.ty; sz.wrap=lambda e:f'1 + {e}'
sz.over=None
def szover(p,x):
    f={'Ident':'Ident.size','LitString':'LitString.size','NamedImport':'NamedImport.size','NamedExport':'NamedExport.size'}
    g=f[p[1][1]] if p[1][0]=='struct' else '('+szover(p[1],'').strip()+')'
    return f'{"optSum" if p[0]=="opt" else "listSum"} {g} {x}'
sz.cls=lambda x:f'1 + {x}.size'
sz.n0='0'; sz.l0='0'; sz.some=lambda x:x; sz.cons=lambda x,l:f'{x} + {l}'
def szb(lt,c,v,es,inl): return ' + '.join((['1','1'] if inl else ['1'])+[e if ' + ' not in e else f'({e})' for e in es if e])
sz.build=szb; sz.tuple=lambda v,es:' + '.join(['1']+[e if ' + ' not in e else f'({e})' for e in es if e])
sz.prog='1 + (1 + listSum LitString.size x.directives + sizeStmts x.body)'
w(family(sz,'The number of nodes.'))
w('/-- The number of nodes. -/\ndef Kind.size : (k : Kind) → k.Val → Nat'); w(kfam(sz))
w('''/-- Changes of leaves. -/
structure LeafMap where
  ident : Ident → Ident := id
  string : LitString → LitString := id
  number : Str → Str := id
  binaryOp : BinaryOp → BinaryOp := id
  logicalOp : LogicalOp → LogicalOp := id
  assignOp : AssignOp → AssignOp := id
  unaryOp : UnaryOp → UnaryOp := id
  updateOp : UpdateOp → UpdateOp := id

/-- Change the leaves of a named import. -/
def NamedImport.mapLeaves (m : LeafMap) (x : NamedImport) : NamedImport := ⟨x.span, m.ident x.name, x.alias.map m.ident⟩

/-- Change the leaves of a named export. -/
def NamedExport.mapLeaves (m : LeafMap) (x : NamedExport) : NamedExport := ⟨x.span, m.ident x.name, x.aliasOf.map m.ident⟩
''')
def mapop(name,pre):
    o=Op(); o.name=name; o.sig=' (m : LeafMap)'; o.args=' m'; o.pre=pre; o.special={}; o.kspecial={}
    o.leaf=lambda p,x:f'm.{LEAF[p]} {x}' if p in LEAF else x
    o.none=lambda x:x; o.ty=lambda t:t; o.lty=lambda t:t; o.wrap=lambda e:e
    o.over=lambda k,f,x:f'{x}.map (fun y => {f})'
    o.cls=lambda x:f'{x}.{name} m'
    o.n0='none'; o.l0='[]'; o.some=lambda x:f'some ({x})'; o.cons=lambda x,l:f'{x} :: {l}'
    par=lambda e: e if ' ' not in e else f'({e})'
    o.build=lambda lt,c,v,es,inl:f'.{c}'+''.join(' '+par(e) for e in es)
    o.tuple=lambda v,es:tup(es)
    o.prog=f'⟨x.sourceType, x.span, x.directives.map (fun y => m.string y), {pre}Stmts m x.body⟩'
    return o
mp=mapop('mapLeaves','map')
w(family(mp,'Change the leaves, wherever they are.'))
w('/-- Change the leaves, wherever they are. -/\ndef Kind.mapLeaves (m : LeafMap) : (k : Kind) → k.Val → k.Val'); w(kfam(mp))
w('''/-- Change the reached leaves of a named import: all of them. -/
def NamedImport.mapReached (m : LeafMap) (x : NamedImport) : NamedImport := x.mapLeaves m

/-- Change the reached leaves of a named export: all of them. -/
def NamedExport.mapReached (m : LeafMap) (x : NamedExport) : NamedExport := x.mapLeaves m
''')
# conditions are reached twice; the second time after a change, so that the changed condition is traversed again: the map of the changed tree
w('''/-- A change of leaves, twice. -/
def LeafMap.twice (m : LeafMap) : LeafMap where
  ident x := m.ident (m.ident x)
  string x := m.string (m.string x)
  number x := m.number (m.number x)
  binaryOp x := m.binaryOp (m.binaryOp x)
  logicalOp x := m.logicalOp (m.logicalOp x)
  assignOp x := m.assignOp (m.assignOp x)
  unaryOp x := m.unaryOp (m.unaryOp x)
  updateOp x := m.updateOp (m.updateOp x)
''')
mr=mapop('mapReached','reach')
mr.special={('Expr','conditional'):'.conditional x1 (x2.mapReached m.twice) (x3.mapReached m) x4',
 ('PatternOrExpr','pattern'):'.pattern x1',('ForDecl','pattern'):'.pattern x1',('ForDecl','declaration'):'.declaration x1 x2 x3',
 ('Stmt','importDecl'):'.importDecl x1 (x2.map (fun y => m.ident y)) x3 (x4.map (fun y => y.map (fun y => y.mapReached m.twice))) (m.string x5)'}
mr.kspecial={'ExprConditional':'(x1, x2.mapReached m.twice, x3.mapReached m, x4)','ForBinding':'(x1, x2, x3)',
 'DeclImport':'(x1, x2.map (fun y => m.ident y), x3, x4.map (fun y => y.map (fun y => y.mapReached m.twice)), m.string x5)'}
mrfam=family(mr,'Change the leaves that are reached, as often as they are reached.')
# assignment patterns are not entered
for lt in ('AssignPattern','AssignElement','AssignProp'):
    mrfam=re.sub(r'\n/-- [^\n]*-/\ndef %s\.mapReached.*?termination_by structural x => x\n'%lt,'',mrfam,flags=re.S)
for h in ('OptAssignElement','OptAssignElements','AssignProps','OptPatternOrExpr'):
    mrfam=re.sub(r'\n/-- [^\n]*-/\ndef reach%s .*?termination_by structural x => x\n'%h,'',mrfam,flags=re.S)
w(mrfam)
w('/-- Change the leaves that are reached, as often as they are reached. -/\ndef Kind.mapReached (m : LeafMap) : (k : Kind) → k.Val → k.Val'); w(kfam(mr).replace('.assignmentPattern, x => x.mapReached m','.assignmentPattern, x => x'))
pl=Op(); pl.name='Plain'; pl.sig=''; pl.args=''; pl.pre='plain'
pl.special={('Expr','conditional'):'False',('PatternOrExpr','pattern'):'False',('ForDecl','pattern'):'False',('ForDecl','declaration'):'False',('Stmt','importDecl'):'x3 = none ∧ x4 = none'}
pl.kspecial={'ExprConditional':'False','ForBinding':'False','DeclImport':'x3 = none ∧ x4 = none'}
pl.leaf=lambda p,x:None; pl.none=lambda x:None; pl.ty=lambda t:'Prop'; pl.lty=pl.ty; pl.wrap=lambda e:e
pl.over=lambda k,f,x:None
pl.cls=lambda x:f'{x}.Plain'
pl.n0='True'; pl.l0='True'; pl.some=lambda x:x; pl.cons=lambda x,l:f'{x} ∧ {l}'
def conj(es):
    es=[e for e in es if e]; return ' ∧ '.join(es) if es else 'True'
pl.build=lambda lt,c,v,es,inl:conj(es); pl.tuple=lambda v,es:conj(es); pl.prog='plainStmts x.body'
_fld=fld
def fld(p,x,op):
    if op is pl and p in(('struct','NamedImport'),('struct','NamedExport')): return None
    if op is pl and p[0] in('opt','vec') and not rec(p): return None
    return _fld(p,x,op)
plfam=family(pl,'No construct whose children are not traversed exactly once.')
for lt in ('AssignPattern','AssignElement','AssignProp'):
    plfam=re.sub(r'\n/-- [^\n]*-/\ndef %s\.Plain.*?termination_by structural x => x\n'%lt,'',plfam,flags=re.S)
for h in ('OptAssignElement','OptAssignElements','AssignProps','OptPatternOrExpr'):
    plfam=re.sub(r'\n/-- [^\n]*-/\ndef plain%s .*?termination_by structural x => x\n'%h,'',plfam,flags=re.S)
w(plfam)
w('/-- No construct whose children are not traversed exactly once. -/\ndef Kind.Plain : (k : Kind) → k.Val → Prop'); w(kfam(pl).replace('.assignmentPattern, x => x.Plain','.assignmentPattern, _ => False').replace(', x => x\n',', _ => True\n'))
w('end Fajt')
open(OUT+'Spec/TreeMaps.lean','w').write('\n'.join(S)+'\n')
