import Verif.Spec.Grammar
/-!
# The grammar is monotone in what it knows of the source
-/
namespace Fajt
open Spec

theorem Semi.mono {E E' : GEnv} (h1 : ∀ q, E.asi q → E'.asi q) {ts us : List Token} (h : Semi E ts us) : Semi E' ts us :=
  h.imp (And.imp id (h1 _)) id

theorem Spec.D.mono {E E' : GEnv} (h1 : ∀ q, E.asi q → E'.asi q) (h2 : E.isModule → E'.isModule) (h3 : ∀ q, E.other q → E'.other q)
    {ctx : Ctx} {g : GNode} {ts : List Token} (h : D E ctx g ts) : D E' ctx g ts := by
  induction h
  case «weaken» => apply D.«weaken» <;> first | assumption | exact h2 ‹_› | exact Semi.mono h1 ‹_› | exact fun t ht l hl => h3 _ (‹BehindDirectives _ _› t ht l hl)
  case «this» => apply D.«this» <;> first | assumption | exact h2 ‹_› | exact Semi.mono h1 ‹_› | exact fun t ht l hl => h3 _ (‹BehindDirectives _ _› t ht l hl)
  case «identRef» => apply D.«identRef» <;> first | assumption | exact h2 ‹_› | exact Semi.mono h1 ‹_› | exact fun t ht l hl => h3 _ (‹BehindDirectives _ _› t ht l hl)
  case «null» => apply D.«null» <;> first | assumption | exact h2 ‹_› | exact Semi.mono h1 ‹_› | exact fun t ht l hl => h3 _ (‹BehindDirectives _ _› t ht l hl)
  case «true» => apply D.«true» <;> first | assumption | exact h2 ‹_› | exact Semi.mono h1 ‹_› | exact fun t ht l hl => h3 _ (‹BehindDirectives _ _› t ht l hl)
  case «false» => apply D.«false» <;> first | assumption | exact h2 ‹_› | exact Semi.mono h1 ‹_› | exact fun t ht l hl => h3 _ (‹BehindDirectives _ _› t ht l hl)
  case «string» => apply D.«string» <;> first | assumption | exact h2 ‹_› | exact Semi.mono h1 ‹_› | exact fun t ht l hl => h3 _ (‹BehindDirectives _ _› t ht l hl)
  case «number» => apply D.«number» <;> first | assumption | exact h2 ‹_› | exact Semi.mono h1 ‹_› | exact fun t ht l hl => h3 _ (‹BehindDirectives _ _› t ht l hl)
  case «regexp» => apply D.«regexp» <;> first | assumption | exact h2 ‹_› | exact Semi.mono h1 ‹_› | exact fun t ht l hl => h3 _ (‹BehindDirectives _ _› t ht l hl)
  case «templateE» => apply D.«templateE» <;> first | assumption | exact h2 ‹_› | exact Semi.mono h1 ‹_› | exact fun t ht l hl => h3 _ (‹BehindDirectives _ _› t ht l hl)
  case «array» => apply D.«array» <;> first | assumption | exact h2 ‹_› | exact Semi.mono h1 ‹_› | exact fun t ht l hl => h3 _ (‹BehindDirectives _ _› t ht l hl)
  case «elementExpr» => apply D.«elementExpr» <;> first | assumption | exact h2 ‹_› | exact Semi.mono h1 ‹_› | exact fun t ht l hl => h3 _ (‹BehindDirectives _ _› t ht l hl)
  case «elementSpread» => apply D.«elementSpread» <;> first | assumption | exact h2 ‹_› | exact Semi.mono h1 ‹_› | exact fun t ht l hl => h3 _ (‹BehindDirectives _ _› t ht l hl)
  case «object» => apply D.«object» <;> first | assumption | exact h2 ‹_› | exact Semi.mono h1 ‹_› | exact fun t ht l hl => h3 _ (‹BehindDirectives _ _› t ht l hl)
  case «propIdent» => apply D.«propIdent» <;> first | assumption | exact h2 ‹_› | exact Semi.mono h1 ‹_› | exact fun t ht l hl => h3 _ (‹BehindDirectives _ _› t ht l hl)
  case «propSpread» => apply D.«propSpread» <;> first | assumption | exact h2 ‹_› | exact Semi.mono h1 ‹_› | exact fun t ht l hl => h3 _ (‹BehindDirectives _ _› t ht l hl)
  case «propNamed» => apply D.«propNamed» <;> first | assumption | exact h2 ‹_› | exact Semi.mono h1 ‹_› | exact fun t ht l hl => h3 _ (‹BehindDirectives _ _› t ht l hl)
  case «propMethod» => apply D.«propMethod» <;> first | assumption | exact h2 ‹_› | exact Semi.mono h1 ‹_› | exact fun t ht l hl => h3 _ (‹BehindDirectives _ _› t ht l hl)
  case «propComputedMethod» => apply D.«propComputedMethod» <;> first | assumption | exact h2 ‹_› | exact Semi.mono h1 ‹_› | exact fun t ht l hl => h3 _ (‹BehindDirectives _ _› t ht l hl)
  case «nameIdent» => apply D.«nameIdent» <;> first | assumption | exact h2 ‹_› | exact Semi.mono h1 ‹_› | exact fun t ht l hl => h3 _ (‹BehindDirectives _ _› t ht l hl)
  case «nameString» => apply D.«nameString» <;> first | assumption | exact h2 ‹_› | exact Semi.mono h1 ‹_› | exact fun t ht l hl => h3 _ (‹BehindDirectives _ _› t ht l hl)
  case «nameNumber» => apply D.«nameNumber» <;> first | assumption | exact h2 ‹_› | exact Semi.mono h1 ‹_› | exact fun t ht l hl => h3 _ (‹BehindDirectives _ _› t ht l hl)
  case «nameComputed» => apply D.«nameComputed» <;> first | assumption | exact h2 ‹_› | exact Semi.mono h1 ‹_› | exact fun t ht l hl => h3 _ (‹BehindDirectives _ _› t ht l hl)
  case «paren» => apply D.«paren» <;> first | assumption | exact h2 ‹_› | exact Semi.mono h1 ‹_› | exact fun t ht l hl => h3 _ (‹BehindDirectives _ _› t ht l hl)
  case «function» => apply D.«function» <;> first | assumption | exact h2 ‹_› | exact Semi.mono h1 ‹_› | exact fun t ht l hl => h3 _ (‹BehindDirectives _ _› t ht l hl)
  case «asyncFunction» => apply D.«asyncFunction» <;> first | assumption | exact h2 ‹_› | exact Semi.mono h1 ‹_› | exact fun t ht l hl => h3 _ (‹BehindDirectives _ _› t ht l hl)
  case «classE» => apply D.«classE» <;> first | assumption | exact h2 ‹_› | exact Semi.mono h1 ‹_› | exact fun t ht l hl => h3 _ (‹BehindDirectives _ _› t ht l hl)
  case «templatePlain» => apply D.«templatePlain» <;> first | assumption | exact h2 ‹_› | exact Semi.mono h1 ‹_› | exact fun t ht l hl => h3 _ (‹BehindDirectives _ _› t ht l hl)
  case «templateHead» => apply D.«templateHead» <;> first | assumption | exact h2 ‹_› | exact Semi.mono h1 ‹_› | exact fun t ht l hl => h3 _ (‹BehindDirectives _ _› t ht l hl)
  case «templateMiddle» => apply D.«templateMiddle» <;> first | assumption | exact h2 ‹_› | exact Semi.mono h1 ‹_› | exact fun t ht l hl => h3 _ (‹BehindDirectives _ _› t ht l hl)
  case «templateTail» => apply D.«templateTail» <;> first | assumption | exact h2 ‹_› | exact Semi.mono h1 ‹_› | exact fun t ht l hl => h3 _ (‹BehindDirectives _ _› t ht l hl)
  case «member» => apply D.«member» <;> first | assumption | exact h2 ‹_› | exact Semi.mono h1 ‹_› | exact fun t ht l hl => h3 _ (‹BehindDirectives _ _› t ht l hl)
  case «superMember» => apply D.«superMember» <;> first | assumption | exact h2 ‹_› | exact Semi.mono h1 ‹_› | exact fun t ht l hl => h3 _ (‹BehindDirectives _ _› t ht l hl)
  case «memberName» => apply D.«memberName» <;> first | assumption | exact h2 ‹_› | exact Semi.mono h1 ‹_› | exact fun t ht l hl => h3 _ (‹BehindDirectives _ _› t ht l hl)
  case «memberComputed» => apply D.«memberComputed» <;> first | assumption | exact h2 ‹_› | exact Semi.mono h1 ‹_› | exact fun t ht l hl => h3 _ (‹BehindDirectives _ _› t ht l hl)
  case «tagged» => apply D.«tagged» <;> first | assumption | exact h2 ‹_› | exact Semi.mono h1 ‹_› | exact fun t ht l hl => h3 _ (‹BehindDirectives _ _› t ht l hl)
  case «taggedCall» => apply D.«taggedCall» <;> first | assumption | exact h2 ‹_› | exact Semi.mono h1 ‹_› | exact fun t ht l hl => h3 _ (‹BehindDirectives _ _› t ht l hl)
  case «newTarget» => apply D.«newTarget» <;> first | assumption | exact h2 ‹_› | exact Semi.mono h1 ‹_› | exact fun t ht l hl => h3 _ (‹BehindDirectives _ _› t ht l hl)
  case «importMeta» => apply D.«importMeta» <;> first | assumption | exact h2 ‹_› | exact Semi.mono h1 ‹_› | exact fun t ht l hl => h3 _ (‹BehindDirectives _ _› t ht l hl)
  case «newArgs» => apply D.«newArgs» <;> first | assumption | exact h2 ‹_› | exact Semi.mono h1 ‹_› | exact fun t ht l hl => h3 _ (‹BehindDirectives _ _› t ht l hl)
  case «newMember» => apply D.«newMember» <;> first | assumption | exact h2 ‹_› | exact Semi.mono h1 ‹_› | exact fun t ht l hl => h3 _ (‹BehindDirectives _ _› t ht l hl)
  case «newPlain» => apply D.«newPlain» <;> first | assumption | exact h2 ‹_› | exact Semi.mono h1 ‹_› | exact fun t ht l hl => h3 _ (‹BehindDirectives _ _› t ht l hl)
  case «newLhs» => apply D.«newLhs» <;> first | assumption | exact h2 ‹_› | exact Semi.mono h1 ‹_› | exact fun t ht l hl => h3 _ (‹BehindDirectives _ _› t ht l hl)
  case «call» => apply D.«call» <;> first | assumption | exact h2 ‹_› | exact Semi.mono h1 ‹_› | exact fun t ht l hl => h3 _ (‹BehindDirectives _ _› t ht l hl)
  case «superCall» => apply D.«superCall» <;> first | assumption | exact h2 ‹_› | exact Semi.mono h1 ‹_› | exact fun t ht l hl => h3 _ (‹BehindDirectives _ _› t ht l hl)
  case «importCall» => apply D.«importCall» <;> first | assumption | exact h2 ‹_› | exact Semi.mono h1 ‹_› | exact fun t ht l hl => h3 _ (‹BehindDirectives _ _› t ht l hl)
  case «args» => apply D.«args» <;> first | assumption | exact h2 ‹_› | exact Semi.mono h1 ‹_› | exact fun t ht l hl => h3 _ (‹BehindDirectives _ _› t ht l hl)
  case «argExpr» => apply D.«argExpr» <;> first | assumption | exact h2 ‹_› | exact Semi.mono h1 ‹_› | exact fun t ht l hl => h3 _ (‹BehindDirectives _ _› t ht l hl)
  case «argSpread» => apply D.«argSpread» <;> first | assumption | exact h2 ‹_› | exact Semi.mono h1 ‹_› | exact fun t ht l hl => h3 _ (‹BehindDirectives _ _› t ht l hl)
  case «chainFirstMember» => apply D.«chainFirstMember» <;> first | assumption | exact h2 ‹_› | exact Semi.mono h1 ‹_› | exact fun t ht l hl => h3 _ (‹BehindDirectives _ _› t ht l hl)
  case «chainFirstCall» => apply D.«chainFirstCall» <;> first | assumption | exact h2 ‹_› | exact Semi.mono h1 ‹_› | exact fun t ht l hl => h3 _ (‹BehindDirectives _ _› t ht l hl)
  case «chainMember» => apply D.«chainMember» <;> first | assumption | exact h2 ‹_› | exact Semi.mono h1 ‹_› | exact fun t ht l hl => h3 _ (‹BehindDirectives _ _› t ht l hl)
  case «chainOptCall» => apply D.«chainOptCall» <;> first | assumption | exact h2 ‹_› | exact Semi.mono h1 ‹_› | exact fun t ht l hl => h3 _ (‹BehindDirectives _ _› t ht l hl)
  case «chainCall» => apply D.«chainCall» <;> first | assumption | exact h2 ‹_› | exact Semi.mono h1 ‹_› | exact fun t ht l hl => h3 _ (‹BehindDirectives _ _› t ht l hl)
  case «chainExpr» => apply D.«chainExpr» <;> first | assumption | exact h2 ‹_› | exact Semi.mono h1 ‹_› | exact fun t ht l hl => h3 _ (‹BehindDirectives _ _› t ht l hl)
  case «optName» => apply D.«optName» <;> first | assumption | exact h2 ‹_› | exact Semi.mono h1 ‹_› | exact fun t ht l hl => h3 _ (‹BehindDirectives _ _› t ht l hl)
  case «optDotName» => apply D.«optDotName» <;> first | assumption | exact h2 ‹_› | exact Semi.mono h1 ‹_› | exact fun t ht l hl => h3 _ (‹BehindDirectives _ _› t ht l hl)
  case «optComputed» => apply D.«optComputed» <;> first | assumption | exact h2 ‹_› | exact Semi.mono h1 ‹_› | exact fun t ht l hl => h3 _ (‹BehindDirectives _ _› t ht l hl)
  case «optIndex» => apply D.«optIndex» <;> first | assumption | exact h2 ‹_› | exact Semi.mono h1 ‹_› | exact fun t ht l hl => h3 _ (‹BehindDirectives _ _› t ht l hl)
  case «prefixUpdate» => apply D.«prefixUpdate» <;> first | assumption | exact h2 ‹_› | exact Semi.mono h1 ‹_› | exact fun t ht l hl => h3 _ (‹BehindDirectives _ _› t ht l hl)
  case «postfixUpdate» => apply D.«postfixUpdate» <;> first | assumption | exact h2 ‹_› | exact Semi.mono h1 ‹_› | exact fun t ht l hl => h3 _ (‹BehindDirectives _ _› t ht l hl)
  case «unary» => apply D.«unary» <;> first | assumption | exact h2 ‹_› | exact Semi.mono h1 ‹_› | exact fun t ht l hl => h3 _ (‹BehindDirectives _ _› t ht l hl)
  case «await» => apply D.«await» <;> first | assumption | exact h2 ‹_› | exact Semi.mono h1 ‹_› | exact fun t ht l hl => h3 _ (‹BehindDirectives _ _› t ht l hl)
  case «binary» => apply D.«binary» <;> first | assumption | exact h2 ‹_› | exact Semi.mono h1 ‹_› | exact fun t ht l hl => h3 _ (‹BehindDirectives _ _› t ht l hl)
  case «logical» => apply D.«logical» <;> first | assumption | exact h2 ‹_› | exact Semi.mono h1 ‹_› | exact fun t ht l hl => h3 _ (‹BehindDirectives _ _› t ht l hl)
  case «conditional» => apply D.«conditional» <;> first | assumption | exact h2 ‹_› | exact Semi.mono h1 ‹_› | exact fun t ht l hl => h3 _ (‹BehindDirectives _ _› t ht l hl)
  case «assign» => apply D.«assign» <;> first | assumption | exact h2 ‹_› | exact Semi.mono h1 ‹_› | exact fun t ht l hl => h3 _ (‹BehindDirectives _ _› t ht l hl)
  case «assignPattern» => apply D.«assignPattern» <;> first | assumption | exact h2 ‹_› | exact Semi.mono h1 ‹_› | exact fun t ht l hl => h3 _ (‹BehindDirectives _ _› t ht l hl)
  case «yieldNone» => apply D.«yieldNone» <;> first | assumption | exact h2 ‹_› | exact Semi.mono h1 ‹_› | exact fun t ht l hl => h3 _ (‹BehindDirectives _ _› t ht l hl)
  case «yield» => apply D.«yield» <;> first | assumption | exact h2 ‹_› | exact Semi.mono h1 ‹_› | exact fun t ht l hl => h3 _ (‹BehindDirectives _ _› t ht l hl)
  case «yieldStar» => apply D.«yieldStar» <;> first | assumption | exact h2 ‹_› | exact Semi.mono h1 ‹_› | exact fun t ht l hl => h3 _ (‹BehindDirectives _ _› t ht l hl)
  case «arrow» => apply D.«arrow» <;> first | assumption | exact h2 ‹_› | exact Semi.mono h1 ‹_› | exact fun t ht l hl => h3 _ (‹BehindDirectives _ _› t ht l hl)
  case «asyncArrow» => apply D.«asyncArrow» <;> first | assumption | exact h2 ‹_› | exact Semi.mono h1 ‹_› | exact fun t ht l hl => h3 _ (‹BehindDirectives _ _› t ht l hl)
  case «arrowIdent» => apply D.«arrowIdent» <;> first | assumption | exact h2 ‹_› | exact Semi.mono h1 ‹_› | exact fun t ht l hl => h3 _ (‹BehindDirectives _ _› t ht l hl)
  case «arrowList» => apply D.«arrowList» <;> first | assumption | exact h2 ‹_› | exact Semi.mono h1 ‹_› | exact fun t ht l hl => h3 _ (‹BehindDirectives _ _› t ht l hl)
  case «arrowExpr» => apply D.«arrowExpr» <;> first | assumption | exact h2 ‹_› | exact Semi.mono h1 ‹_› | exact fun t ht l hl => h3 _ (‹BehindDirectives _ _› t ht l hl)
  case «arrowBlock» => apply D.«arrowBlock» <;> first | assumption | exact h2 ‹_› | exact Semi.mono h1 ‹_› | exact fun t ht l hl => h3 _ (‹BehindDirectives _ _› t ht l hl)
  case «comma» => apply D.«comma» <;> first | assumption | exact h2 ‹_› | exact Semi.mono h1 ‹_› | exact fun t ht l hl => h3 _ (‹BehindDirectives _ _› t ht l hl)
  case «params» => apply D.«params» <;> first | assumption | exact h2 ‹_› | exact Semi.mono h1 ‹_› | exact fun t ht l hl => h3 _ (‹BehindDirectives _ _› t ht l hl)
  case «paramsRest» => apply D.«paramsRest» <;> first | assumption | exact h2 ‹_› | exact Semi.mono h1 ‹_› | exact fun t ht l hl => h3 _ (‹BehindDirectives _ _› t ht l hl)
  case «body» => apply D.«body» <;> first | assumption | exact h2 ‹_› | exact Semi.mono h1 ‹_› | exact fun t ht l hl => h3 _ (‹BehindDirectives _ _› t ht l hl)
  case «elementPlain» => apply D.«elementPlain» <;> first | assumption | exact h2 ‹_› | exact Semi.mono h1 ‹_› | exact fun t ht l hl => h3 _ (‹BehindDirectives _ _› t ht l hl)
  case «elementStatic» => apply D.«elementStatic» <;> first | assumption | exact h2 ‹_› | exact Semi.mono h1 ‹_› | exact fun t ht l hl => h3 _ (‹BehindDirectives _ _› t ht l hl)
  case «method» => apply D.«method» <;> first | assumption | exact h2 ‹_› | exact Semi.mono h1 ‹_› | exact fun t ht l hl => h3 _ (‹BehindDirectives _ _› t ht l hl)
  case «generatorMethod» => apply D.«generatorMethod» <;> first | assumption | exact h2 ‹_› | exact Semi.mono h1 ‹_› | exact fun t ht l hl => h3 _ (‹BehindDirectives _ _› t ht l hl)
  case «asyncMethod» => apply D.«asyncMethod» <;> first | assumption | exact h2 ‹_› | exact Semi.mono h1 ‹_› | exact fun t ht l hl => h3 _ (‹BehindDirectives _ _› t ht l hl)
  case «getter» => apply D.«getter» <;> first | assumption | exact h2 ‹_› | exact Semi.mono h1 ‹_› | exact fun t ht l hl => h3 _ (‹BehindDirectives _ _› t ht l hl)
  case «setter» => apply D.«setter» <;> first | assumption | exact h2 ‹_› | exact Semi.mono h1 ‹_› | exact fun t ht l hl => h3 _ (‹BehindDirectives _ _› t ht l hl)
  case «classTail» => apply D.«classTail» <;> first | assumption | exact h2 ‹_› | exact Semi.mono h1 ‹_› | exact fun t ht l hl => h3 _ (‹BehindDirectives _ _› t ht l hl)
  case «classHeritage» => apply D.«classHeritage» <;> first | assumption | exact h2 ‹_› | exact Semi.mono h1 ‹_› | exact fun t ht l hl => h3 _ (‹BehindDirectives _ _› t ht l hl)
  case «bindingIdent» => apply D.«bindingIdent» <;> first | assumption | exact h2 ‹_› | exact Semi.mono h1 ‹_› | exact fun t ht l hl => h3 _ (‹BehindDirectives _ _› t ht l hl)
  case «bindingObject» => apply D.«bindingObject» <;> first | assumption | exact h2 ‹_› | exact Semi.mono h1 ‹_› | exact fun t ht l hl => h3 _ (‹BehindDirectives _ _› t ht l hl)
  case «bindingObjectRest» => apply D.«bindingObjectRest» <;> first | assumption | exact h2 ‹_› | exact Semi.mono h1 ‹_› | exact fun t ht l hl => h3 _ (‹BehindDirectives _ _› t ht l hl)
  case «bindingArray» => apply D.«bindingArray» <;> first | assumption | exact h2 ‹_› | exact Semi.mono h1 ‹_› | exact fun t ht l hl => h3 _ (‹BehindDirectives _ _› t ht l hl)
  case «bindingArrayRest» => apply D.«bindingArrayRest» <;> first | assumption | exact h2 ‹_› | exact Semi.mono h1 ‹_› | exact fun t ht l hl => h3 _ (‹BehindDirectives _ _› t ht l hl)
  case «bindingSingle» => apply D.«bindingSingle» <;> first | assumption | exact h2 ‹_› | exact Semi.mono h1 ‹_› | exact fun t ht l hl => h3 _ (‹BehindDirectives _ _› t ht l hl)
  case «bindingNamed» => apply D.«bindingNamed» <;> first | assumption | exact h2 ‹_› | exact Semi.mono h1 ‹_› | exact fun t ht l hl => h3 _ (‹BehindDirectives _ _› t ht l hl)
  case «bindingElement» => apply D.«bindingElement» <;> first | assumption | exact h2 ‹_› | exact Semi.mono h1 ‹_› | exact fun t ht l hl => h3 _ (‹BehindDirectives _ _› t ht l hl)
  case «noInitializer» => apply D.«noInitializer» <;> first | assumption | exact h2 ‹_› | exact Semi.mono h1 ‹_› | exact fun t ht l hl => h3 _ (‹BehindDirectives _ _› t ht l hl)
  case «initializer» => apply D.«initializer» <;> first | assumption | exact h2 ‹_› | exact Semi.mono h1 ‹_› | exact fun t ht l hl => h3 _ (‹BehindDirectives _ _› t ht l hl)
  case «assignObject» => apply D.«assignObject» <;> first | assumption | exact h2 ‹_› | exact Semi.mono h1 ‹_› | exact fun t ht l hl => h3 _ (‹BehindDirectives _ _› t ht l hl)
  case «assignObjectRest» => apply D.«assignObjectRest» <;> first | assumption | exact h2 ‹_› | exact Semi.mono h1 ‹_› | exact fun t ht l hl => h3 _ (‹BehindDirectives _ _› t ht l hl)
  case «assignArray» => apply D.«assignArray» <;> first | assumption | exact h2 ‹_› | exact Semi.mono h1 ‹_› | exact fun t ht l hl => h3 _ (‹BehindDirectives _ _› t ht l hl)
  case «assignArrayRest» => apply D.«assignArrayRest» <;> first | assumption | exact h2 ‹_› | exact Semi.mono h1 ‹_› | exact fun t ht l hl => h3 _ (‹BehindDirectives _ _› t ht l hl)
  case «targetPattern» => apply D.«targetPattern» <;> first | assumption | exact h2 ‹_› | exact Semi.mono h1 ‹_› | exact fun t ht l hl => h3 _ (‹BehindDirectives _ _› t ht l hl)
  case «targetExpr» => apply D.«targetExpr» <;> first | assumption | exact h2 ‹_› | exact Semi.mono h1 ‹_› | exact fun t ht l hl => h3 _ (‹BehindDirectives _ _› t ht l hl)
  case «assignElement» => apply D.«assignElement» <;> first | assumption | exact h2 ‹_› | exact Semi.mono h1 ‹_› | exact fun t ht l hl => h3 _ (‹BehindDirectives _ _› t ht l hl)
  case «assignSingle» => apply D.«assignSingle» <;> first | assumption | exact h2 ‹_› | exact Semi.mono h1 ‹_› | exact fun t ht l hl => h3 _ (‹BehindDirectives _ _› t ht l hl)
  case «assignNamed» => apply D.«assignNamed» <;> first | assumption | exact h2 ‹_› | exact Semi.mono h1 ‹_› | exact fun t ht l hl => h3 _ (‹BehindDirectives _ _› t ht l hl)
  case «varDecl» => apply D.«varDecl» <;> first | assumption | exact h2 ‹_› | exact Semi.mono h1 ‹_› | exact fun t ht l hl => h3 _ (‹BehindDirectives _ _› t ht l hl)
  case «varDecls» => apply D.«varDecls» <;> first | assumption | exact h2 ‹_› | exact Semi.mono h1 ‹_› | exact fun t ht l hl => h3 _ (‹BehindDirectives _ _› t ht l hl)
  case «empty» => apply D.«empty» <;> first | assumption | exact h2 ‹_› | exact Semi.mono h1 ‹_› | exact fun t ht l hl => h3 _ (‹BehindDirectives _ _› t ht l hl)
  case «blockS» => apply D.«blockS» <;> first | assumption | exact h2 ‹_› | exact Semi.mono h1 ‹_› | exact fun t ht l hl => h3 _ (‹BehindDirectives _ _› t ht l hl)
  case «block» => apply D.«block» <;> first | assumption | exact h2 ‹_› | exact Semi.mono h1 ‹_› | exact fun t ht l hl => h3 _ (‹BehindDirectives _ _› t ht l hl)
  case «var» => apply D.«var» <;> first | assumption | exact h2 ‹_› | exact Semi.mono h1 ‹_› | exact fun t ht l hl => h3 _ (‹BehindDirectives _ _› t ht l hl)
  case «exprStmt» => apply D.«exprStmt» <;> first | assumption | exact h2 ‹_› | exact Semi.mono h1 ‹_› | exact fun t ht l hl => h3 _ (‹BehindDirectives _ _› t ht l hl)
  case «labeled» => apply D.«labeled» <;> first | assumption | exact h2 ‹_› | exact Semi.mono h1 ‹_› | exact fun t ht l hl => h3 _ (‹BehindDirectives _ _› t ht l hl)
  case «break» => apply D.«break» <;> first | assumption | exact h2 ‹_› | exact Semi.mono h1 ‹_› | exact fun t ht l hl => h3 _ (‹BehindDirectives _ _› t ht l hl)
  case «breakLabel» => apply D.«breakLabel» <;> first | assumption | exact h2 ‹_› | exact Semi.mono h1 ‹_› | exact fun t ht l hl => h3 _ (‹BehindDirectives _ _› t ht l hl)
  case «continue» => apply D.«continue» <;> first | assumption | exact h2 ‹_› | exact Semi.mono h1 ‹_› | exact fun t ht l hl => h3 _ (‹BehindDirectives _ _› t ht l hl)
  case «continueLabel» => apply D.«continueLabel» <;> first | assumption | exact h2 ‹_› | exact Semi.mono h1 ‹_› | exact fun t ht l hl => h3 _ (‹BehindDirectives _ _› t ht l hl)
  case «return» => apply D.«return» <;> first | assumption | exact h2 ‹_› | exact Semi.mono h1 ‹_› | exact fun t ht l hl => h3 _ (‹BehindDirectives _ _› t ht l hl)
  case «returnExpr» => apply D.«returnExpr» <;> first | assumption | exact h2 ‹_› | exact Semi.mono h1 ‹_› | exact fun t ht l hl => h3 _ (‹BehindDirectives _ _› t ht l hl)
  case «throw» => apply D.«throw» <;> first | assumption | exact h2 ‹_› | exact Semi.mono h1 ‹_› | exact fun t ht l hl => h3 _ (‹BehindDirectives _ _› t ht l hl)
  case «debugger» => apply D.«debugger» <;> first | assumption | exact h2 ‹_› | exact Semi.mono h1 ‹_› | exact fun t ht l hl => h3 _ (‹BehindDirectives _ _› t ht l hl)
  case «if» => apply D.«if» <;> first | assumption | exact h2 ‹_› | exact Semi.mono h1 ‹_› | exact fun t ht l hl => h3 _ (‹BehindDirectives _ _› t ht l hl)
  case «ifElse» => apply D.«ifElse» <;> first | assumption | exact h2 ‹_› | exact Semi.mono h1 ‹_› | exact fun t ht l hl => h3 _ (‹BehindDirectives _ _› t ht l hl)
  case «with» => apply D.«with» <;> first | assumption | exact h2 ‹_› | exact Semi.mono h1 ‹_› | exact fun t ht l hl => h3 _ (‹BehindDirectives _ _› t ht l hl)
  case «tryCatch» => apply D.«tryCatch» <;> first | assumption | exact h2 ‹_› | exact Semi.mono h1 ‹_› | exact fun t ht l hl => h3 _ (‹BehindDirectives _ _› t ht l hl)
  case «tryFinally» => apply D.«tryFinally» <;> first | assumption | exact h2 ‹_› | exact Semi.mono h1 ‹_› | exact fun t ht l hl => h3 _ (‹BehindDirectives _ _› t ht l hl)
  case «tryBoth» => apply D.«tryBoth» <;> first | assumption | exact h2 ‹_› | exact Semi.mono h1 ‹_› | exact fun t ht l hl => h3 _ (‹BehindDirectives _ _› t ht l hl)
  case «catch» => apply D.«catch» <;> first | assumption | exact h2 ‹_› | exact Semi.mono h1 ‹_› | exact fun t ht l hl => h3 _ (‹BehindDirectives _ _› t ht l hl)
  case «catchParam» => apply D.«catchParam» <;> first | assumption | exact h2 ‹_› | exact Semi.mono h1 ‹_› | exact fun t ht l hl => h3 _ (‹BehindDirectives _ _› t ht l hl)
  case «switch» => apply D.«switch» <;> first | assumption | exact h2 ‹_› | exact Semi.mono h1 ‹_› | exact fun t ht l hl => h3 _ (‹BehindDirectives _ _› t ht l hl)
  case «case» => apply D.«case» <;> first | assumption | exact h2 ‹_› | exact Semi.mono h1 ‹_› | exact fun t ht l hl => h3 _ (‹BehindDirectives _ _› t ht l hl)
  case «default» => apply D.«default» <;> first | assumption | exact h2 ‹_› | exact Semi.mono h1 ‹_› | exact fun t ht l hl => h3 _ (‹BehindDirectives _ _› t ht l hl)
  case «doWhile» => apply D.«doWhile» <;> first | assumption | exact h2 ‹_› | exact Semi.mono h1 ‹_› | exact fun t ht l hl => h3 _ (‹BehindDirectives _ _› t ht l hl)
  case «while» => apply D.«while» <;> first | assumption | exact h2 ‹_› | exact Semi.mono h1 ‹_› | exact fun t ht l hl => h3 _ (‹BehindDirectives _ _› t ht l hl)
  case «forNone» => apply D.«forNone» <;> first | assumption | exact h2 ‹_› | exact Semi.mono h1 ‹_› | exact fun t ht l hl => h3 _ (‹BehindDirectives _ _› t ht l hl)
  case «for» => apply D.«for» <;> first | assumption | exact h2 ‹_› | exact Semi.mono h1 ‹_› | exact fun t ht l hl => h3 _ (‹BehindDirectives _ _› t ht l hl)
  case «noExpr» => apply D.«noExpr» <;> first | assumption | exact h2 ‹_› | exact Semi.mono h1 ‹_› | exact fun t ht l hl => h3 _ (‹BehindDirectives _ _› t ht l hl)
  case «someExpr» => apply D.«someExpr» <;> first | assumption | exact h2 ‹_› | exact Semi.mono h1 ‹_› | exact fun t ht l hl => h3 _ (‹BehindDirectives _ _› t ht l hl)
  case «forInitExpr» => apply D.«forInitExpr» <;> first | assumption | exact h2 ‹_› | exact Semi.mono h1 ‹_› | exact fun t ht l hl => h3 _ (‹BehindDirectives _ _› t ht l hl)
  case «forInitDecl» => apply D.«forInitDecl» <;> first | assumption | exact h2 ‹_› | exact Semi.mono h1 ‹_› | exact fun t ht l hl => h3 _ (‹BehindDirectives _ _› t ht l hl)
  case «forIn» => apply D.«forIn» <;> first | assumption | exact h2 ‹_› | exact Semi.mono h1 ‹_› | exact fun t ht l hl => h3 _ (‹BehindDirectives _ _› t ht l hl)
  case «forOf» => apply D.«forOf» <;> first | assumption | exact h2 ‹_› | exact Semi.mono h1 ‹_› | exact fun t ht l hl => h3 _ (‹BehindDirectives _ _› t ht l hl)
  case «forAwait» => apply D.«forAwait» <;> first | assumption | exact h2 ‹_› | exact Semi.mono h1 ‹_› | exact fun t ht l hl => h3 _ (‹BehindDirectives _ _› t ht l hl)
  case «forDeclVar» => apply D.«forDeclVar» <;> first | assumption | exact h2 ‹_› | exact Semi.mono h1 ‹_› | exact fun t ht l hl => h3 _ (‹BehindDirectives _ _› t ht l hl)
  case «forDeclPattern» => apply D.«forDeclPattern» <;> first | assumption | exact h2 ‹_› | exact Semi.mono h1 ‹_› | exact fun t ht l hl => h3 _ (‹BehindDirectives _ _› t ht l hl)
  case «forDeclExpr» => apply D.«forDeclExpr» <;> first | assumption | exact h2 ‹_› | exact Semi.mono h1 ‹_› | exact fun t ht l hl => h3 _ (‹BehindDirectives _ _› t ht l hl)
  case «itemStmt» => apply D.«itemStmt» <;> first | assumption | exact h2 ‹_› | exact Semi.mono h1 ‹_› | exact fun t ht l hl => h3 _ (‹BehindDirectives _ _› t ht l hl)
  case «itemDecl» => apply D.«itemDecl» <;> first | assumption | exact h2 ‹_› | exact Semi.mono h1 ‹_› | exact fun t ht l hl => h3 _ (‹BehindDirectives _ _› t ht l hl)
  case «functionDecl» => apply D.«functionDecl» <;> first | assumption | exact h2 ‹_› | exact Semi.mono h1 ‹_› | exact fun t ht l hl => h3 _ (‹BehindDirectives _ _› t ht l hl)
  case «asyncFunctionDecl» => apply D.«asyncFunctionDecl» <;> first | assumption | exact h2 ‹_› | exact Semi.mono h1 ‹_› | exact fun t ht l hl => h3 _ (‹BehindDirectives _ _› t ht l hl)
  case «classDecl» => apply D.«classDecl» <;> first | assumption | exact h2 ‹_› | exact Semi.mono h1 ‹_› | exact fun t ht l hl => h3 _ (‹BehindDirectives _ _› t ht l hl)
  case «lexical» => apply D.«lexical» <;> first | assumption | exact h2 ‹_› | exact Semi.mono h1 ‹_› | exact fun t ht l hl => h3 _ (‹BehindDirectives _ _› t ht l hl)
  case «importModule» => apply D.«importModule» <;> first | assumption | exact h2 ‹_› | exact Semi.mono h1 ‹_› | exact fun t ht l hl => h3 _ (‹BehindDirectives _ _› t ht l hl)
  case «importFrom» => apply D.«importFrom» <;> first | assumption | exact h2 ‹_› | exact Semi.mono h1 ‹_› | exact fun t ht l hl => h3 _ (‹BehindDirectives _ _› t ht l hl)
  case «exportNamed» => apply D.«exportNamed» <;> first | assumption | exact h2 ‹_› | exact Semi.mono h1 ‹_› | exact fun t ht l hl => h3 _ (‹BehindDirectives _ _› t ht l hl)
  case «exportFrom» => apply D.«exportFrom» <;> first | assumption | exact h2 ‹_› | exact Semi.mono h1 ‹_› | exact fun t ht l hl => h3 _ (‹BehindDirectives _ _› t ht l hl)
  case «exportAll» => apply D.«exportAll» <;> first | assumption | exact h2 ‹_› | exact Semi.mono h1 ‹_› | exact fun t ht l hl => h3 _ (‹BehindDirectives _ _› t ht l hl)
  case «exportAllAs» => apply D.«exportAllAs» <;> first | assumption | exact h2 ‹_› | exact Semi.mono h1 ‹_› | exact fun t ht l hl => h3 _ (‹BehindDirectives _ _› t ht l hl)
  case «exportVar» => apply D.«exportVar» <;> first | assumption | exact h2 ‹_› | exact Semi.mono h1 ‹_› | exact fun t ht l hl => h3 _ (‹BehindDirectives _ _› t ht l hl)
  case «exportDecl» => apply D.«exportDecl» <;> first | assumption | exact h2 ‹_› | exact Semi.mono h1 ‹_› | exact fun t ht l hl => h3 _ (‹BehindDirectives _ _› t ht l hl)
  case «exportDefaultDecl» => apply D.«exportDefaultDecl» <;> first | assumption | exact h2 ‹_› | exact Semi.mono h1 ‹_› | exact fun t ht l hl => h3 _ (‹BehindDirectives _ _› t ht l hl)
  case «exportDefaultExpr» => apply D.«exportDefaultExpr» <;> first | assumption | exact h2 ‹_› | exact Semi.mono h1 ‹_› | exact fun t ht l hl => h3 _ (‹BehindDirectives _ _› t ht l hl)

end Fajt
