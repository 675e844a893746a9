"""The struct and enum declarations of /repo/ast/src, and their counterparts in lean/Verif/Model/Ast.lean."""
import re
R='/repo/ast/src/'; OUT='/verif/lean/Verif/'
structs={}; enums={}; order=[]
def strip_attrs(t):
    # replace attributes and comments by blanks, keeping line numbers
    out=list(t); i=0
    while i<len(t):
        if t.startswith('//',i):
            j=t.find('\n',i); j=len(t) if j<0 else j
            for k in range(i,j): out[k]=' '
            i=j
        elif t.startswith('#[',i):
            d=0;j=i+1
            while True:
                if t[j]=='[': d+=1
                elif t[j]==']':
                    d-=1
                    if d==0: break
                j+=1
            for k in range(i,j+1):
                if out[k]!='\n': out[k]=' '
            i=j+1
        else: i+=1
    return ''.join(out)
for f in ['expr.rs','literal.rs','class.rs','method.rs','binding.rs','assignment.rs','stmt.rs','lib.rs']:
    t=strip_attrs(open(R+f).read())
    for m in re.finditer(r'pub (struct|enum) (\w+)(?:<T>)? \{(.*?)\n\s*\}',t,re.S):
        l0=t.count('\n',0,m.start())+1; l1=t.count('\n',0,m.end())+1
        kind,name,body=m.groups()
        body=body.strip()
        if name=='SourceType': continue
        items=[x.strip() for x in re.split(r',(?![^<]*>)',body) if x.strip()]
        d=dict(loc=f'/repo/ast/src/{f}:{l0}-{l1}',name=name)
        if kind=='struct':
            d['fields']=[]
            for x in items:
                mm=re.match(r'pub (\w+): (.*)$',x,re.S); d['fields'].append((mm.group(1),mm.group(2).strip()))
            structs[name]=d
        else:
            d['variants']=[]
            for x in items:
                mm=re.match(r'(\w+)(?:\((.*)\))?$',x,re.S); d['variants'].append((mm.group(1),mm.group(2)))
            enums[name]=d
        order.append(name)
structs['StmtList']['fields']=[(n,t.replace('Vec<T>','Vec<Stmt>')) for n,t in structs['StmtList']['fields']]
enums['Program']['variants']=[(v,'StmtList') for v,_ in enums['Program']['variants']]

# Lean types of enums and the constructors of their variants
ENUM={
'Expr':('Expr','arrow assign await binary call classE conditional function ident literal logical member metaProp new optCall optMember paren sequence tagged this unary update yield'),
'BinaryOperator':('BinaryOp','plus minus mul div mod exp shl shr ushr lt gt le ge instanceof in_ eq ne seq sne bitAnd bitXor bitOr'),
'LogicalOperator':('LogicalOp','and or coalesce'),
'UnaryOperator':('UnaryOp','delete void typeof plus minus bitNot not'),
'UpdateOperator':('UpdateOp','incr decr'),
'AssignmentOperator':('AssignOp','assign mul pow div mod add sub shl shr ushr bitAnd bitXor bitOr'),
'VariableKind':('VarKind','const let_ var'),
'MethodKind':('MethodKind','method get set'),
'ArrowFunctionBody':('ArrowBody','expr body'),
'MemberObject':('MemberObject','expr super'),
'MemberProperty':('MemberProp','ident expr'),
'Argument':('Argument','expr spread'),
'Callee':('Callee','super import expr'),
'Literal':('Literal','null boolean string number array object regexp template'),
'TemplatePart':('TemplatePart','string expr'),
'ArrayElement':('ArrayElement','elision expr spread'),
'PropertyDefinition':('PropDef','identRef spread named method'),
'BindingPattern':('BindingPattern','ident array object'),
'ObjectBindingProp':('BindingProp','single named'),
'PropertyName':('PropName','ident string number computed'),
'PatternOrExpr':('PatternOrExpr','expr pattern'),
'AssignmentPattern':('AssignPattern','array object'),
'AssignmentProp':('AssignProp','single named'),
'Stmt':('Stmt','block break continue debugger doWhile empty expr for forIn forOf if labeled return switch throw try variable while with classDecl functionDecl importDecl exportDecl'),
'ForInit':('ForInit','expr declaration'),
'ForDeclaration':('ForDecl','expr pattern declaration'),
'DeclExport':('ExportDecl','decl defaultExpr defaultDecl named namespace'),
}
SA={ # structs with a Lean type of their own: type, constructor with {0}.. for the fields
'Ident':('Ident','⟨{0}, {1}⟩'),'LitString':('LitString','⟨{0}, {1}⟩'),'LitNumber':('Str','{0}'),'LitTemplate':('List TemplatePart','{0}'),
'LitArray':('List ArrayElement','{0}'),'LitObject':('List PropDef','{0}'),'Super':('Span','{0}'),
'MethodDefinition':('MethodDef',None),'FormalParameters':('FormalParams',None),'Body':('Body',None),'BindingElement':('BindingElement',None),
'AssignmentElement':('AssignElement',None),'StmtBlock':('Block',None),'StmtVariable':('VarStmt',None),'VariableDeclaration':('VarDecl',None),
'CatchClause':('CatchClause',None),'SwitchCase':('SwitchCase',None),'NamedImport':('NamedImport','⟨{0}, {1}, {2}⟩'),
'NamedExport':('NamedExport','⟨{0}, {1}, {2}⟩'),'StmtList':('Span × List LitString × List Stmt','({0}, {1}, {2})'),
}
def ctor(s): return '.'+s
def q(n): return n
# where inlined structs live
INL={}
for e,(lt,cs) in ENUM.items():
    cs=cs.split(); vs=enums[e]['variants']
    assert len(cs)==len(vs),(e,len(cs),len(vs))
    for c,(v,p) in zip(cs,vs):
        if p and p in structs and p not in SA:
            assert p not in INL,p
            INL[p]=(lt,c)
for s in structs:
    assert (s in SA) != (s in INL),s
def unbox(t):
    m=re.match(r'Box<(.*)>$',t); return unbox(m.group(1)) if m else t
def parse(t):
    t=unbox(t.strip())
    m=re.match(r'(Option|Vec)<(.*)>$',t)
    if m: return ('opt' if m.group(1)=='Option' else 'vec',parse(m.group(2)))
    prim={'Span':'span','bool':'bool','String':'string','char':'char'}
    if t in prim: return (prim[t],)
    if t in structs: return ('struct',t)
    assert t in enums,t
    return ('enum',t)
def ty(p):
    if p[0] in('opt','vec'): return f'.{p[0]} ({ty(p[1])})' if len(p[1])>1 else f'.{p[0]} {ty(p[1])}'
    if len(p)==1: return '.'+p[0]
    return f'.{p[0]} .{p[1]}'
def sem(p):
    if p[0]=='opt': return f'Option ({sem(p[1])})'
    if p[0]=='vec': return f'List ({sem(p[1])})'
    if p[0]=='struct': return SA[p[1]][0] if p[1] in SA else INL[p[1]][0]
    if p[0]=='enum': return {'ClassElement':'MethodDef','Program':'Program'}.get(p[1]) or ENUM[p[1]][0]
    return {'span':'Span','bool':'Bool','string':'Str','char':'Char'}[p[0]]
MUT='Expr Literal TemplatePart ArrayElement PropDef PropName MethodDef FormalParams Body ArrowBody MemberObject MemberProp Argument Callee BindingPattern BindingProp BindingElement PatternOrExpr AssignPattern AssignElement AssignProp Stmt Block VarStmt VarDecl CatchClause SwitchCase ForInit ForDecl ExportDecl'.split()
rust_of={}
for e,(lt,_) in ENUM.items(): rust_of[lt]=('enum',e)
for s,(lt,_) in SA.items():
    if ' ' not in lt and lt not in('Str','Span'): rust_of[lt]=('struct',s)
# list helpers: element type is a mutual Lean type, ClassElement, or an option of one
helpers={}  # name -> (kind, elem parse)
def hname(p):
    """name suffix of a helper for option/vec of a recursive type"""
    k,e=p
    if k=='opt': return 'Opt'+sem(e)
    if e[0]=='opt': return 'Opt'+sem(e[1])+'s'
    return sem(e)+'s'
def rec(p):
    if p[0] in('opt','vec'): return rec(p[1])
    if p[0]=='struct' and p[1] in('LitTemplate','LitArray','LitObject'): return True
    return sem(p) in MUT
