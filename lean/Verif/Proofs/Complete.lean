import Verif.Proofs.CompleteModule
import Verif.Proofs.CompleteMethod
import Verif.Proofs.CompleteSeek
import Verif.Proofs.CompleteFor
/-!
# Completeness: all rules together
-/
namespace Fajt
open Spec
set_option linter.unusedSectionVars false
variable [UnicodeID]

namespace Complete
open Parser

/-- The meaning of a derivation. -/
def Mot (sty : SourceType) (ctx : Ctx) : CNode → Point → Point → Prop
  | .expr l e => ExprOK sty ctx l e
  | .exprs es => ExprsOK sty ctx es
  | .newE e => NewOK sty ctx e
  | .callE e => CallOK sty ctx e
  | .chain e => ChainOK sty ctx e
  | .args sp as => ArgsOK sty ctx sp as
  | .argList as => ArgListOK sty ctx as
  | .arg x => ArgOK sty ctx x
  | .template ps => TemplateOK sty ctx ps
  | .templateRest ps => TemplateRestOK sty ctx ps
  | .memberProp p => MemberOK sty ctx p
  | .optProp o p => OptOK sty ctx o p
  | .elements es => ElementsOK sty ctx es
  | .element e => ElementOK sty ctx e
  | .props ps => PropsOK sty ctx ps
  | .prop p => PropOK sty ctx p
  | .propName n => NameOK sty ctx n
  | .initializer e => InitOK sty ctx e
  | .binding p => BindingOK sty ctx p
  | .bindingElement e => BindElemOK sty ctx e
  | .bindingProp p => BindPropOK sty ctx p
  | .bindingProps ps rest => BindPropsOK sty ctx ps rest
  | .bindingElements es rest => BindElemsOK sty ctx es rest
  | .assignPattern p => AssignPatternOK sty ctx p
  | .target t => AsgTargetOK sty ctx t
  | .assignElement e => AsgElemOK sty ctx e
  | .assignProp p => AsgPropOK sty ctx p
  | .assignProps ps rest => AsgPropsOK sty ctx ps rest
  | .assignElements es rest => AsgElemsOK sty ctx es rest
  | .initLit i => InitLitOK sty ctx i
  | .initProps i => InitPropsOK sty ctx i
  | .initElements i => InitElementsOK sty ctx i
  | .stop s => StopOK sty ctx s
  | .stops s => StopsOK sty ctx s
  | .arrowAhead => fun a _ => AheadOK sty ctx a
  | .arrowBody b => ArrowBodyOK sty ctx b
  | .forDecl d => ForDeclOK sty ctx d
  | .params p => ParamsOK sty ctx p
  | .paramList es rest => ParamListOK sty ctx es rest
  | .body b => BodyOK sty ctx b
  | .directives ds => DirsOK sty ctx ds
  | .varDecl v => VarDeclOK sty ctx v
  | .varDecls vs => VarDeclsOK sty ctx vs
  | .optExpr e => OptExprOK sty ctx e
  | .stmt s => StmtOK sty ctx s
  | .decl s => DeclOK sty ctx s
  | .item s => ItemOK sty ctx s
  | .stmts ss => StmtsOK sty ctx ss
  | .items ss => ItemsOK sty ctx ss
  | .block k => BlockOK sty ctx k
  | .catchClause k => CatchOK sty ctx k
  | .case k => CaseOK sty ctx k
  | .caseStmts ss => CaseStmtsOK sty ctx ss
  | .cases cs => CasesOK sty ctx cs
  | .forInit i => ForInitOK sty ctx i
  | .method m => MethodOK sty ctx m
  | .classElement m => ElementMOK sty ctx m
  | .classBody hs ms => ClassBodyOK sty ctx hs ms
  | .classTail sup ms => ClassTailOK sty ctx sup ms

theorem complete {sty : SourceType} {ctx : Ctx} {g : CNode} {a b : Point} (h : Derives sty ctx g a b) : Mot sty ctx g a b := by
  induction h with
  | up hl _ ih => exact ExprOK.up ih hl
  | this h1 h2 => exact this_ok h1 h2
  | identRef h1 h2 h3 => exact identRef_ok h1 h2 h3
  | null h1 h2 => exact null_ok h1 h2
  | true h1 h2 => exact true_ok h1 h2
  | false h1 h2 => exact false_ok h1 h2
  | string h1 h2 => exact literal_ok h1 h2
  | number h1 h2 => exact literal_ok h1 h2
  | templateE _ h2 ih => exact templateE_ok ih h2
  | paren h1 _ h3 h4 ih => exact paren_ok h1 ih h3 h4
  | array h1 _ h3 ih => exact array_ok h1 ih h3
  | elementsEnd h1 => exact elementsEnd_ok h1
  | elementsHole h1 _ ih => exact elementsHole_ok h1 ih
  | elementsLast _ h1 ih => exact elementsLast_ok ih h1
  | elementsMore _ h1 _ ih1 ih2 => exact elementsMore_ok ih1 h1 ih2
  | elementExpr _ ih => exact elementExpr_ok ih
  | elementSpread h1 _ ih => exact elementSpread_ok h1 ih
  | object h1 _ h3 ih => exact object_ok h1 ih h3
  | propsEnd h1 => exact propsEnd_ok h1
  | propsLast _ h1 ih => exact propsLast_ok ih h1
  | propsMore _ h1 _ ih1 ih2 => exact propsMore_ok ih1 h1 ih2
  | propIdent h1 h2 h3 => exact propIdent_ok h1 h2 h3
  | propSpread h1 _ ih => exact propSpread_ok h1 ih
  | propNamed _ h1 _ h3 ih1 ih2 => exact propNamed_ok ih1 h1 ih2 h3
  | nameIdent h1 h2 => exact nameIdent_ok h1 h2
  | nameString h1 h2 => exact nameString_ok h1 h2
  | nameNumber h1 h2 => exact nameNumber_ok h1 h2
  | nameComputed h1 _ h3 ih => exact nameComputed_ok h1 ih h3
  | regexE h1 h2 => exact regexE_ok h1 h2
  | templateHead h1 _ ih => exact templateHead_ok h1 ih
  | templateMiddle _ h1 h2 h3 _ ih1 ih2 => exact templateMiddle_ok ih1 h1 h2 h3 ih2
  | templateTail _ h1 h2 h3 ih => exact templateTail_ok ih h1 h2 h3
  | templatePlain h1 => exact templatePlain_ok h1
  | member _ _ h3 ih1 ih2 => exact member_ok ih1 ih2 h3
  | tagged _ _ h3 ih1 ih2 => exact tagged_ok ih1 ih2 h3
  | superMember h0 h1 h2 _ h4 ih => exact superMember_ok h0 h1 h2 ih h4
  | newTarget h1 h2 h3 h4 h5 h6 h7 => exact newTarget_ok h1 h2 h3 h4 h5 h6 h7
  | importMeta h1 h2 h3 h4 h5 h6 h7 => exact importMeta_ok h1 h2 h3 h4 h5 h6 h7
  | newArgs h1 _ _ h4 ih1 ih2 => exact newArgs_ok h1 ih1 ih2 h4
  | memberName h1 h2 h3 => exact memberName_ok h1 h2 h3
  | memberComputed h1 _ h3 ih => exact memberComputed_ok h1 ih h3
  | newMember _ ih => exact newMember_ok ih
  | newPlain h1 _ h3 ih => exact newPlain_ok h1 ih h3
  | newLhs _ ih => exact newLhs_ok ih
  | call _ _ h3 ih1 ih2 => exact call_ok ih1 ih2 h3
  | callAgain _ _ h3 ih1 ih2 => exact callAgain_ok ih1 ih2 h3
  | callMember _ _ h3 ih1 ih2 => exact callMember_ok ih1 ih2 h3
  | callTagged _ h2 h3 ih => exact callTagged_ok ih h2 h3
  | callLhs _ ih => exact callLhs_ok ih
  | superCall h0 h1 _ h3 ih => exact superCall_ok h0 h1 ih h3
  | importCall h1 h2 _ h4 h5 h6 ih => exact importCall_ok h1 h2 ih h4 h5 h6
  | args h1 _ h3 ih => exact args_ok h1 ih h3
  | argsEnd h1 => exact argsEnd_ok h1
  | argsLast _ h1 ih => exact argsLast_ok ih h1
  | argsMore _ h1 _ ih1 ih2 => exact argsMore_ok ih1 h1 ih2
  | argExpr _ ih => exact argExpr_ok ih
  | argSpread h1 _ ih => exact argSpread_ok h1 ih
  | chainFirstMember _ h1 _ h3 ih1 ih2 => exact chainFirstMember_ok ih1 h1 ih2 h3
  | chainFirstCall _ h1 h2 _ h3 ih1 ih2 => exact chainFirstCall_ok ih1 h1 h2 ih2 h3
  | chainMember _ _ h3 ih1 ih2 => exact chainMember_ok ih1 ih2 h3
  | chainOptCall _ h2 _ h3 ih1 ih2 => exact chainOptCall_ok ih1 h2 ih2 h3
  | chainCall _ _ h3 ih1 ih2 => exact chainCall_ok ih1 ih2 h3
  | chainExpr _ ih => exact chainExpr_ok ih
  | optName h1 h2 h3 => exact optName_ok h1 h2 h3
  | optDotName h1 h2 h3 => exact optDotName_ok h1 h2 h3
  | optComputed h0 h1 _ h3 ih => exact optComputed_ok h0 h1 ih h3
  | optIndex h1 _ h3 ih => exact optIndex_ok h1 ih h3
  | prefixUpdate h1 h2 _ h3 h4 ih => exact prefixUpdate_ok h1 h2 ih h3 h4
  | postfixUpdate _ h1 h2 h3 h4 h5 ih => exact postfixUpdate_ok ih h1 h2 h3 h4 h5
  | unary h1 h2 _ h3 h4 ih => exact unary_ok h1 h2 ih h3 h4
  | await h1 h2 _ h4 ih => exact await_ok h1 h2 ih h4
  | binary _ h1 h2 h3 _ h4 ih1 ih2 => exact binary_ok ih1 h1 h2 h3 ih2 h4
  | logical _ h1 h2 _ h4 ih1 ih2 => exact logical_ok ih1 h1 h2 ih2 h4
  | conditional _ h1 _ h2 _ h3 ih1 ih2 ih3 => exact conditional_ok ih1 h1 ih2 h2 ih3 h3
  | assign _ h1 h2 h3 h4 _ h5 ih1 ih2 => exact assign_ok ih1 h1 h2 h3 h4 ih2 h5
  | yieldNone h1 h2 h3 h4 => exact yieldNone_ok h1 h2 h3 h4
  | yield h1 h2 h3 _ h4 ih => exact yield_ok h1 h2 h3 ih h4
  | yieldStar h1 h2 h3 h4 _ h5 ih => exact yieldStar_ok h1 h2 h3 h4 ih h5
  | comma _ _ h3 ih1 ih2 => exact comma_ok ih1 ih2 h3
  | exprsLast h1 _ ih => exact exprsLast_ok h1 ih
  | exprsMore h1 _ _ ih1 ih2 => exact exprsMore_ok h1 ih1 ih2
  | function h1 h2 h3 _ _ h6 ih1 ih2 => exact function_ok h1 h2 h3 ih1 ih2 h6
  | asyncFunction h0 hl h1 h2 h3 _ _ h6 ih1 ih2 => exact asyncFunction_ok h0 hl h1 h2 h3 ih1 ih2 h6
  | params h1 _ h3 ih => exact params_ok h1 ih h3
  | paramsEnd h1 => exact paramsEnd_ok h1
  | paramsRest h1 _ h3 ih => exact paramsRest_ok h1 ih h3
  | paramsLast _ h1 ih => exact paramsLast_ok ih h1
  | paramsMore _ h1 _ ih1 ih2 => exact paramsMore_ok ih1 h1 ih2
  | body h1 _ _ h4 ih1 ih2 => exact body_ok h1 ih1 ih2 h4
  | directivesEnd h => exact directivesEnd_ok h
  | directivesMore h1 h2 h3 h4 _ ih => exact directivesMore_ok h1 h2 h3 h4 ih
  | noInitializer => exact noInit_ok
  | initializer h1 _ ih => exact init_ok h1 ih
  | bindingIdent h1 h2 => exact bindingIdent_ok h1 h2
  | bindingObject h1 _ h3 ih => exact bindingObject_ok h1 ih h3
  | bindingArray h1 _ h3 ih => exact bindingArray_ok h1 ih h3
  | bindingPropsEnd h1 => exact propsEndB_ok h1
  | bindingPropsRest h1 _ h3 ih => exact propsRestB_ok h1 ih h3
  | bindingPropsLast _ h1 ih => exact propsLastB_ok ih h1
  | bindingPropsMore _ h1 _ ih1 ih2 => exact propsMoreB_ok ih1 h1 ih2
  | bindingElementsEnd h1 => exact elemsEndB_ok h1
  | bindingElementsHole h1 _ ih => exact elemsHoleB_ok h1 ih
  | bindingElementsRest h1 _ h3 ih => exact elemsRestB_ok h1 ih h3
  | bindingElementsLast _ h1 ih => exact elemsLastB_ok ih h1
  | bindingElementsMore _ h1 _ ih1 ih2 => exact elemsMoreB_ok ih1 h1 ih2
  | bindingElement _ _ h3 ih1 ih2 => exact bindingElement_ok ih1 ih2 h3
  | bindingSingle h1 h2 _ h3 ih => exact bindingSingle_ok h1 h2 ih h3
  | bindingNamed _ h1 _ h3 ih1 ih2 => exact bindingNamed_ok ih1 h1 ih2 h3
  | varDecl _ _ h3 h4 ih1 ih2 => exact varDecl_ok ih1 ih2 h3 h4
  | varDeclsLast _ ih => exact varDeclsLast_ok ih
  | varDeclsMore _ h1 _ ih1 ih2 => exact varDeclsMore_ok ih1 h1 ih2
  | empty h1 h2 => exact empty_ok h1 h2
  | blockS _ ih => exact blockS_ok ih
  | block h1 _ h3 ih => exact block_ok h1 ih h3
  | stmtsEnd h1 => exact stmtsEnd_ok h1
  | stmtsMore _ _ ih1 ih2 => exact stmtsMore_ok ih1 ih2
  | itemsEnd h1 => exact itemsEnd_ok h1
  | itemsMore _ _ ih1 ih2 => exact itemsMore_ok ih1 ih2
  | var h1 _ h2 h3 h4 ih => exact var_ok h1 ih h2 h3 h4
  | exprStmt h1 _ h2 h3 h4 ih => exact exprStmt_ok h1 ih h2 h3 h4
  | labeled h1 h2 h3 _ h4 ih => exact labeled_ok h1 h2 h3 ih h4
  | «break» h1 h2 h3 => exact break_ok h1 h2 h3
  | breakLabel h1 h2 h3 h4 h5 h6 => exact breakLabel_ok h1 h2 h3 h4 h5 h6
  | «continue» h1 h2 h3 => exact continue_ok h1 h2 h3
  | continueLabel h1 h2 h3 h4 h5 h6 => exact continueLabel_ok h1 h2 h3 h4 h5 h6
  | «return» h1 h2 h3 h4 => exact return_ok h1 h2 h3 h4
  | returnExpr h1 h2 h3 _ h4 h5 h6 ih => exact returnExpr_ok h1 h2 h3 ih h4 h5 h6
  | throw h1 h2 _ h3 h4 h5 ih => exact throw_ok h1 h2 ih h3 h4 h5
  | debugger h1 h2 h3 => exact debugger_ok h1 h2 h3
  | «if» h1 h2 _ h3 _ h4 h5 ih1 ih2 => exact if_ok h1 h2 ih1 h3 ih2 h4 h5
  | ifElse h1 h2 _ h3 _ h4 _ h5 ih1 ih2 ih3 => exact ifElse_ok h1 h2 ih1 h3 ih2 h4 ih3 h5
  | «with» h1 h2 _ h3 _ h4 ih1 ih2 => exact with_ok h1 h2 ih1 h3 ih2 h4
  | tryCatch h1 _ _ h2 h3 ih1 ih2 => exact tryCatch_ok h1 ih1 ih2 h2 h3
  | tryFinally h1 _ h2 _ h3 ih1 ih2 => exact tryFinally_ok h1 ih1 h2 ih2 h3
  | tryCatchFinally h1 _ _ h2 _ h3 ih1 ih2 ih3 => exact tryCatchFinally_ok h1 ih1 ih2 h2 ih3 h3
  | «catch» h1 _ h2 ih => exact catch_ok h1 ih h2
  | catchParam h1 h2 _ h3 _ h4 ih1 ih2 => exact catchParam_ok h1 h2 ih1 h3 ih2 h4
  | switch h1 h2 _ h3 h4 _ h5 ih1 ih2 => exact switch_ok h1 h2 ih1 h3 h4 ih2 h5
  | casesEnd h1 => exact casesEnd_ok h1
  | casesMore _ _ ih1 ih2 => exact casesMore_ok ih1 ih2
  | case h1 _ h2 _ h3 ih1 ih2 => exact case_ok h1 ih1 h2 ih2 h3
  | default h1 h2 _ h3 ih => exact default_ok h1 h2 ih h3
  | caseStmtsEnd h1 h2 => exact caseStmtsEnd_ok h1 h2
  | caseStmtsMore _ _ ih1 ih2 => exact caseStmtsMore_ok ih1 ih2
  | «while» h1 h2 _ h3 _ h4 ih1 ih2 => exact while_ok h1 h2 ih1 h3 ih2 h4
  | doWhile h1 _ h2 h3 _ h4 h5 h6 ih1 ih2 => exact doWhile_ok h1 ih1 h2 h3 ih2 h4 h5 h6
  | «for» h1 h2 _ h3 _ h4 _ h5 _ h6 ih1 ih2 ih3 ih4 => exact for_ok h1 h2 ih1 h3 ih2 h4 ih3 h5 ih4 h6
  | noExpr => exact noExpr_ok
  | someExpr _ ih => exact someExpr_ok ih
  | noForInit => exact noForInit_ok
  | forInitExpr h1 h2 _ ih => exact forInitExpr_ok h1 h2 ih
  | forInitDecl h1 h2 _ h3 ih => exact forInitDecl_ok h1 h2 ih h3
  | itemStmt _ ih => exact itemStmt_ok ih
  | itemDecl _ ih => exact itemDecl_ok ih
  | lexical h1 h2 h3 _ h4 h5 h6 ih => exact lexical_ok h1 h2 h3 ih h4 h5 h6
  | functionDecl h1 h2 h3 _ _ h6 ih1 ih2 => exact functionDecl_ok h1 h2 h3 ih1 ih2 h6
  | asyncFunctionDecl h0 h1 h2 h3 _ _ h6 ih1 ih2 => exact asyncFunctionDecl_ok h0 h1 h2 h3 ih1 ih2 h6
  | importModule h0 h1 h2 h3 h4 => exact importModule_ok h0 h1 h2 h3 h4
  | importFrom h0 h1 h2 h3 h4 h5 h6 => exact importFrom_ok h0 h1 h2 h3 h4 h5 h6
  | exportNamed h0 h1 h2 h3 h4 h5 h6 => exact exportNamed_ok h0 h1 h2 h3 h4 h5 h6
  | exportFrom h0 h1 h2 h3 h4 h5 h6 h7 => exact exportFrom_ok h0 h1 h2 h3 h4 h5 h6 h7
  | exportAll h0 h1 h2 h3 h4 h5 h6 => exact exportAll_ok h0 h1 h2 h3 h4 h5 h6
  | exportAllAs h0 h1 h2 h3 h4 h5 h6 h7 h8 h9 => exact exportAllAs_ok h0 h1 h2 h3 h4 h5 h6 h7 h8 h9
  | exportVar h0 h1 h2 _ h3 h4 h5 h6 ih => exact exportVar_ok h0 h1 h2 ih h3 h4 h5 h6
  | exportDecl h0 h1 h2 _ h3 ih => exact exportDecl_ok h0 h1 h2 ih h3
  | exportDefaultDecl h0 h1 h2 h3 _ h4 ih => exact exportDefaultDecl_ok h0 h1 h2 h3 ih h4
  | exportDefaultExpr h0 h1 h2 h3 _ h4 h5 h6 ih => exact exportDefaultExpr_ok h0 h1 h2 h3 ih h4 h5 h6
  | propMethod h1 _ ih => exact propMethod_ok h1 ih rfl
  | propComputedMethod h1 _ _ h4 h5 ih1 ih2 ih3 =>
    exact propComputedMethod_ok ih1 ih2 ih3 h4 h5 (by cases h1 with | nameComputed h _ _ => exact ⟨_, h⟩)
  | classE h1 h2 _ h4 ih => exact classE_ok h1 h2 ih h4
  | classPlain h1 _ ih => exact classPlain_ok h1 ih
  | classExtends h1 _ h3 _ ih1 ih2 => exact classExtends_ok h1 ih1 h3 ih2
  | classEnd h1 => exact classEnd_ok h1
  | classSemi h1 _ ih => exact classSemi_ok h1 ih
  | classMore h1 _ _ ih1 ih2 => exact classMore_ok h1 ih1 ih2
  | elementPlain _ ih => exact elementPlain_ok ih rfl
  | elementStatic _ h1 _ ih => exact elementStatic_ok h1 ih rfl
  | method h0 _ _ _ h4 h5 ih1 ih2 ih3 => exact methodPlain_ok h0 ih1 ih2 ih3 h4 h5
  | generatorMethod h0 _ _ _ h4 h5 ih1 ih2 ih3 => exact generatorMethod_ok h0 ih1 ih2 ih3 h4 h5
  | asyncMethod h0 hl hg _ _ _ h4 h5 ih1 ih2 ih3 => exact asyncMethod_ok h0 hl hg ih1 ih2 ih3 h4 h5
  | getter h0 _ _ _ h4 h5 ih1 ih2 ih3 => exact accessor_ok _ (.inl ⟨rfl, rfl⟩) h0 ih1 ih2 ih3 h4 h5
  | setter h0 _ _ _ h4 h5 ih1 ih2 ih3 => exact accessor_ok _ (.inr ⟨rfl, rfl⟩) h0 ih1 ih2 ih3 h4 h5
  | classDecl h1 h2 _ h4 ih => exact classDecl_ok h1 h2 ih h4
  | directivesStop hn hv hk h hs ih => exact directivesStop_ok hn hv hk ih (derives_src h) hs
  | arrowIdent h1 hi h3 hv hf _ hs ih => exact arrowIdent_ok h1 hi h3 hv hf ih hs
  | arrow _ _ h3 hv hf _ hs ih1 ih2 ih3 => exact arrow_ok ih1 ih2 h3 hv hf ih3 hs
  | asyncArrowIdent h0 h1 hi h3 hv hf _ hs ih => exact asyncArrowIdent_ok h0 h1 hi h3 hv hf ih hs
  | asyncArrow hk h0 h1 _ h3 hv hf _ hs ih1 ih2 ih3 => exact asyncArrow_ok hk h0 ih1 ih2 (derives_src h1) h3 hv hf ih3 hs
  | asyncCall hn ht hi _ hs ih => exact asyncCall_ok hn ht hi ih hs
  | arrowExpr hl _ ih => exact arrowExpr_ok hl ih
  | arrowBlock _ ih => exact arrowBlock_ok ih
  | aheadEmpty h1 h2 => exact aheadEmpty_ok h1 h2
  | aheadParen hk h1 h h3 h4 ih => exact aheadParen_ok hk h1 ih (derives_src h) h3 h4
  | aheadStop hk h1 h ih => exact aheadStop_ok hk h1 ih (derives_src h)
  | stopsHere _ ih => exact stopsHere_ok ih
  | stopsMore _ h2 _ ih1 ih2 => exact stopsMore_ok ih1 h2 ih2
  | stopDots hk hn hv => exact stopDots_ok hk hn hv
  | stopInit hk h _ he ih1 ih2 => exact stopInit_ok hk ih1 (derives_src h) ih2 he
  | initObject h1 _ ih => exact initObject_ok h1 ih
  | initArray h1 _ ih => exact initArray_ok h1 ih
  | initPropsHere h1 h hsp h2 hv => exact initPropsHere_ok h1 h hsp h2 hv
  | initPropsValue _ h2 _ ih1 ih2 => exact initPropsValue_ok ih1 h2 ih2
  | initPropsMore _ h2 _ ih1 ih2 => exact initPropsMore_ok ih1 h2 ih2
  | initElementsHere _ ih => exact initElementsHere_ok ih
  | initElementsSpread h1 _ ih => exact initElementsSpread_ok h1 ih
  | initElementsHole h1 _ ih => exact initElementsHole_ok h1 ih
  | initElementsMore _ h2 _ ih1 ih2 => exact initElementsMore_ok ih1 h2 ih2
  | assignLiteral hk h hl _ h3 _ hs ih1 ih2 ih3 =>
    exact assignLiteral_ok hk (newLhs_ok (newMember_ok (ExprOK.up20 ih1))).up17 hl ih2 (derives_src h) h3 ih3 hs
  | assignInit hk h _ h3 _ hs ih1 ih2 ih3 => exact assignInit_ok hk ih1 (derives_src h) ih2 h3 ih3 hs
  | assignObject h1 _ hs ih => exact assignObject_ok h1 ih hs
  | assignArray h1 _ hs ih => exact assignArray_ok h1 ih hs
  | assignPropsEnd h => exact assignPropsEnd_ok h
  | assignPropsRest h1 _ h3 ih => exact assignPropsRest_ok h1 ih h3
  | assignPropsLast _ h2 ih => exact assignPropsLast_ok ih h2
  | assignPropsMore _ h2 _ ih1 ih2 => exact assignPropsMore_ok ih1 h2 ih2
  | assignElementsEnd h => exact assignElementsEnd_ok h
  | assignElementsRest h1 _ h3 ih => exact assignElementsRest_ok h1 ih h3
  | assignElementsComma h1 _ ih => exact assignElementsComma_ok h1 ih
  | assignElementsMore _ hv ht _ ih1 ih2 => exact assignElementsMore_ok ih1 hv ht ih2
  | assignElement _ _ hs ih1 ih2 => exact assignElement_ok ih1 ih2 hs
  | targetPattern _ ih => exact targetPattern_ok ih
  | targetExpr hl _ ht ih => exact targetExpr_ok hl ih ht
  | assignSingle h1 hi _ hs ih => exact assignSingle_ok h1 hi ih hs
  | assignNamed _ h2 _ hs ih1 ih2 => exact assignNamed_ok ih1 h2 ih2 hs
  | forIn h1 h2 hk h h4 _ h6 _ hs ih1 ih2 ih3 => exact forIn_ok h1 h2 hk ih1 (derives_src h) h4 ih2 h6 ih3 hs
  | forOf h1 h2 hk h h4 _ h6 _ hs ih1 ih2 ih3 => exact forOf_ok h1 h2 hk ih1 (derives_src h) h4 ih2 h6 ih3 hs
  | forAwait h1 ha h0 h2 hk h h4 _ h6 _ hs ih1 ih2 ih3 =>
    exact forAwait_ok h1 ha h0 h2 hk ih1 (derives_src h) h4 ih2 h6 ih3 hs
  | forDeclVar hn hk h _ hs ih1 ih2 => exact forDeclVar_ok hn hk ih1 ih2 (derives_src h) hs
  | forDeclExpr hn hv hl _ _ ht ih1 ih2 => exact forDeclExpr_ok hn hv hl ih1 ih2 ht
  | forDeclLiteral _ _ ih1 ih2 => exact forDeclLiteral_ok (newLhs_ok (newMember_ok (ExprOK.up20 ih1))).up17 ih2
  | forDeclInit h _ ih1 ih2 => exact forDeclInit_ok ih1 (derives_src h) ih2

/-! ## The start -/

theorem start_eq (s : Str) (sty : SourceType) : start s sty = .ok () (stateAt sty ⟨[], s, true⟩ 0) := by
  have hc : Place s (cursor ⟨[], s, true⟩) := cursor_place ⟨[], s, true⟩
  unfold start
  have e1 : LexerS.pull ({ LexerS.new s with st := { LexState.default with html := sty = .script } } : LexerS) = _ :=
    pull_eq sty hc s
  have e2 := pull_eq sty (lexAt_place sty hc) s
  simp only [M.bind_def, M.bind, liftLx, e1, e2, M.modify_def]
  rfl

end Complete
end Fajt
