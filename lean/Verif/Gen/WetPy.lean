import Verif.Model.Py

/-!
# Syntax trees of the functions of `/repo/wilson/translate/wet.py`

Generated by `tools/gen_wetpy.py`.
-/

set_option autoImplicit false
set_option maxRecDepth 10000

namespace Verif.Gen.WetPy
open Verif.Py

/-- wet.py:13-23: the constants of the module -/
def globals : Stmts :=
  st![.assign n!"Nc" (.flt 3 1),
    .assign n!"Qu" (.bin .div (.int 2) (.flt 3 1)),
    .assign n!"Qd" (.bin .div (.neg (.int 1)) (.flt 3 1)),
    .assign n!"dflav" (.dict kv![
        (.str n!"d") : (.int 0),
        (.str n!"s") : (.int 1),
        (.str n!"b") : (.int 2)]),
    .assign n!"uflav" (.dict kv![
        (.str n!"u") : (.int 0),
        (.str n!"c") : (.int 1)]),
    .assign n!"lflav" (.dict kv![
        (.str n!"e") : (.int 0),
        (.str n!"mu") : (.int 1),
        (.str n!"tau") : (.int 2)]),
    .assign n!"llflav" (.dict kv![
        (.str n!"e") : (.int 0),
        (.str n!"m") : (.int 1),
        (.str n!"t") : (.int 2)])]

/-- wet.py:29-55 `_JMS_to_Bern_I` -/
def fn_JMS_to_Bern_I : Fn := ⟨n!"_JMS_to_Bern_I", [n!"C", n!"qq"],
  st![.ite (.bin .isin (.var n!"qq") (.list es![(.str n!"sb"), (.str n!"db"), (.str n!"ds")])) st![.assign n!"dd" (.str n!"dd"),
      .assign n!"ij" (.comp n!"q" (.var n!"qq") (.idx (.var n!"dflav") (.var n!"q")))] st![.ite (.bin .eq (.var n!"qq") (.str n!"cu")) st![.assign n!"dd" (.str n!"uu"),
        .assign n!"ij" (.comp n!"q" (.var n!"qq") (.idx (.var n!"uflav") (.var n!"q")))] st![.raise]],
    .assign n!"ji" (.list es![(.idx (.var n!"ij") (.int 1)), (.idx (.var n!"ij") (.int 0))]),
    .assign n!"d" (.dict kv![
        (.bin .add (.str n!"1") (.bin .mul (.int 2) (.var n!"qq"))) : (.idx (.idx (.var n!"C") (.fstr es![(.str n!"V"), (.var n!"dd"), (.str n!"LL")])) (.bin .add (.var n!"ij") (.var n!"ij"))),
        (.bin .add (.str n!"2") (.bin .mul (.int 2) (.var n!"qq"))) : (.bin .sub (.meth (.idx (.idx (.var n!"C") (.fstr es![(.str n!"S1"), (.var n!"dd"), (.str n!"RR")])) (.bin .add (.var n!"ji") (.var n!"ji"))) n!"conj" es![]) (.bin .div (.meth (.idx (.idx (.var n!"C") (.fstr es![(.str n!"S8"), (.var n!"dd"), (.str n!"RR")])) (.bin .add (.var n!"ji") (.var n!"ji"))) n!"conj" es![]) (.bin .mul (.int 2) (.var n!"Nc")))),
        (.bin .add (.str n!"3") (.bin .mul (.int 2) (.var n!"qq"))) : (.bin .div (.meth (.idx (.idx (.var n!"C") (.fstr es![(.str n!"S8"), (.var n!"dd"), (.str n!"RR")])) (.bin .add (.var n!"ji") (.var n!"ji"))) n!"conj" es![]) (.int 2)),
        (.bin .add (.str n!"4") (.bin .mul (.int 2) (.var n!"qq"))) : (.neg (.idx (.idx (.var n!"C") (.fstr es![(.str n!"V8"), (.var n!"dd"), (.str n!"LR")])) (.bin .add (.var n!"ij") (.var n!"ij")))),
        (.bin .add (.str n!"5") (.bin .mul (.int 2) (.var n!"qq"))) : (.bin .add (.bin .mul (.neg (.int 2)) (.idx (.idx (.var n!"C") (.fstr es![(.str n!"V1"), (.var n!"dd"), (.str n!"LR")])) (.bin .add (.var n!"ij") (.var n!"ij")))) (.bin .div (.idx (.idx (.var n!"C") (.fstr es![(.str n!"V8"), (.var n!"dd"), (.str n!"LR")])) (.bin .add (.var n!"ij") (.var n!"ij"))) (.var n!"Nc"))),
        (.bin .add (.str n!"1p") (.bin .mul (.int 2) (.var n!"qq"))) : (.idx (.idx (.var n!"C") (.fstr es![(.str n!"V"), (.var n!"dd"), (.str n!"RR")])) (.bin .add (.var n!"ij") (.var n!"ij"))),
        (.bin .add (.str n!"2p") (.bin .mul (.int 2) (.var n!"qq"))) : (.bin .sub (.idx (.idx (.var n!"C") (.fstr es![(.str n!"S1"), (.var n!"dd"), (.str n!"RR")])) (.bin .add (.var n!"ij") (.var n!"ij"))) (.bin .div (.idx (.idx (.var n!"C") (.fstr es![(.str n!"S8"), (.var n!"dd"), (.str n!"RR")])) (.bin .add (.var n!"ij") (.var n!"ij"))) (.bin .mul (.int 2) (.var n!"Nc")))),
        (.bin .add (.str n!"3p") (.bin .mul (.int 2) (.var n!"qq"))) : (.bin .div (.idx (.idx (.var n!"C") (.fstr es![(.str n!"S8"), (.var n!"dd"), (.str n!"RR")])) (.bin .add (.var n!"ij") (.var n!"ij"))) (.int 2))]),
    .ret (.var n!"d")]⟩

/-- wet.py:58-83 `_Bern_to_JMS_I` -/
def fn_Bern_to_JMS_I : Fn := ⟨n!"_Bern_to_JMS_I", [n!"C", n!"qq"],
  st![.ite (.bin .isin (.var n!"qq") (.list es![(.str n!"sb"), (.str n!"db"), (.str n!"ds")])) st![.assign n!"dd" (.str n!"dd"),
      .assign n!"ij" (.fstr es![(.bin .add (.idx (.var n!"dflav") (.idx (.var n!"qq") (.int 0))) (.int 1)), (.bin .add (.idx (.var n!"dflav") (.idx (.var n!"qq") (.int 1))) (.int 1))])] st![.ite (.bin .eq (.var n!"qq") (.str n!"cu")) st![.assign n!"dd" (.str n!"uu"),
        .assign n!"ij" (.fstr es![(.bin .add (.idx (.var n!"uflav") (.idx (.var n!"qq") (.int 0))) (.int 1)), (.bin .add (.idx (.var n!"uflav") (.idx (.var n!"qq") (.int 1))) (.int 1))])] st![.raise]],
    .assign n!"ji" (.bin .add (.idx (.var n!"ij") (.int 1)) (.idx (.var n!"ij") (.int 0))),
    .assign n!"d" (.dict kv![
        (.fstr es![(.str n!"V"), (.var n!"dd"), (.str n!"LL_"), (.var n!"ij"), (.var n!"ij")]) : (.idx (.var n!"C") (.bin .add (.str n!"1") (.bin .mul (.int 2) (.var n!"qq")))),
        (.fstr es![(.str n!"S1"), (.var n!"dd"), (.str n!"RR_"), (.var n!"ji"), (.var n!"ji")]) : (.bin .add (.meth (.idx (.var n!"C") (.bin .add (.str n!"2") (.bin .mul (.int 2) (.var n!"qq")))) n!"conj" es![]) (.bin .div (.meth (.idx (.var n!"C") (.bin .add (.str n!"3") (.bin .mul (.int 2) (.var n!"qq")))) n!"conj" es![]) (.int 3))),
        (.fstr es![(.str n!"S8"), (.var n!"dd"), (.str n!"RR_"), (.var n!"ji"), (.var n!"ji")]) : (.bin .mul (.int 2) (.meth (.idx (.var n!"C") (.bin .add (.str n!"3") (.bin .mul (.int 2) (.var n!"qq")))) n!"conj" es![])),
        (.fstr es![(.str n!"V1"), (.var n!"dd"), (.str n!"LR_"), (.var n!"ij"), (.var n!"ij")]) : (.bin .sub (.bin .div (.neg (.idx (.var n!"C") (.bin .add (.str n!"4") (.bin .mul (.int 2) (.var n!"qq"))))) (.int 6)) (.bin .div (.idx (.var n!"C") (.bin .add (.str n!"5") (.bin .mul (.int 2) (.var n!"qq")))) (.int 2))),
        (.fstr es![(.str n!"V8"), (.var n!"dd"), (.str n!"LR_"), (.var n!"ij"), (.var n!"ij")]) : (.neg (.idx (.var n!"C") (.bin .add (.str n!"4") (.bin .mul (.int 2) (.var n!"qq"))))),
        (.fstr es![(.str n!"V"), (.var n!"dd"), (.str n!"RR_"), (.var n!"ij"), (.var n!"ij")]) : (.idx (.var n!"C") (.bin .add (.str n!"1p") (.bin .mul (.int 2) (.var n!"qq")))),
        (.fstr es![(.str n!"S1"), (.var n!"dd"), (.str n!"RR_"), (.var n!"ij"), (.var n!"ij")]) : (.bin .add (.idx (.var n!"C") (.bin .add (.str n!"2p") (.bin .mul (.int 2) (.var n!"qq")))) (.bin .div (.idx (.var n!"C") (.bin .add (.str n!"3p") (.bin .mul (.int 2) (.var n!"qq")))) (.int 3))),
        (.fstr es![(.str n!"S8"), (.var n!"dd"), (.str n!"RR_"), (.var n!"ij"), (.var n!"ij")]) : (.bin .mul (.int 2) (.idx (.var n!"C") (.bin .add (.str n!"3p") (.bin .mul (.int 2) (.var n!"qq")))))]),
    .ite (.bin .eq (.var n!"qq") (.str n!"cu")) st![.for n!"VXY" (.list es![(.str n!"VuuRR"), (.str n!"V1uuLR"), (.str n!"V8uuLR"), (.str n!"VuuLL")]) st![.assign n!"popped" (.idx (.var n!"d") (.bin .add (.var n!"VXY") (.str n!"_2121"))),
        .del n!"d" (.bin .add (.var n!"VXY") (.str n!"_2121")),
        .setItem n!"d" (.bin .add (.var n!"VXY") (.str n!"_1212")) (.meth (.var n!"popped") n!"conj" es![])]] st![],
    .ret (.var n!"d")]⟩

/-- wet.py:85-111 `_JMS_to_EOS_I` -/
def fn_JMS_to_EOS_I : Fn := ⟨n!"_JMS_to_EOS_I", [n!"C", n!"qq", n!"p"],
  st![.ite (.bin .isin (.var n!"qq") (.list es![(.str n!"sb"), (.str n!"db")])) st![.assign n!"dd" (.str n!"dd"),
      .assign n!"ij" (.comp n!"q" (.var n!"qq") (.idx (.var n!"dflav") (.var n!"q")))] st![.raise],
    .assign n!"ji" (.list es![(.idx (.var n!"ij") (.int 1)), (.idx (.var n!"ij") (.int 0))]),
    .assign n!"V" (.call n!"ckmutil.ckm.ckm_tree" es![(.idx (.var n!"p") (.str n!"Vus")), (.idx (.var n!"p") (.str n!"Vub")), (.idx (.var n!"p") (.str n!"Vcb")), (.idx (.var n!"p") (.str n!"gamma"))]),
    .assign n!"prefactor" (.bin .div (.bin .div (.bin .div (.call n!"sqrt" es![(.int 2)]) (.idx (.var n!"p") (.str n!"GF"))) (.int 4)) (.bin .pow (.bin .mul (.idx (.var n!"V") (.list es![(.int 2), (.idx (.var n!"ij") (.int 1))])) (.meth (.idx (.var n!"V") (.list es![(.int 2), (.idx (.var n!"ij") (.int 0))])) n!"conj" es![])) (.int 2))),
    .assign n!"d" (.dict kv![
        (.bin .add (.bin .mul (.int 2) (.var n!"qq")) (.str n!"::c1")) : (.bin .mul (.var n!"prefactor") (.idx (.idx (.var n!"C") (.fstr es![(.str n!"V"), (.var n!"dd"), (.str n!"LL")])) (.bin .add (.var n!"ij") (.var n!"ij")))),
        (.bin .add (.bin .mul (.int 2) (.var n!"qq")) (.str n!"::c2")) : (.bin .mul (.var n!"prefactor") (.bin .sub (.meth (.idx (.idx (.var n!"C") (.fstr es![(.str n!"S1"), (.var n!"dd"), (.str n!"RR")])) (.bin .add (.var n!"ji") (.var n!"ji"))) n!"conj" es![]) (.bin .div (.meth (.idx (.idx (.var n!"C") (.fstr es![(.str n!"S8"), (.var n!"dd"), (.str n!"RR")])) (.bin .add (.var n!"ji") (.var n!"ji"))) n!"conj" es![]) (.bin .mul (.int 2) (.var n!"Nc"))))),
        (.bin .add (.bin .mul (.int 2) (.var n!"qq")) (.str n!"::c3")) : (.bin .div (.bin .mul (.var n!"prefactor") (.meth (.idx (.idx (.var n!"C") (.fstr es![(.str n!"S8"), (.var n!"dd"), (.str n!"RR")])) (.bin .add (.var n!"ji") (.var n!"ji"))) n!"conj" es![])) (.int 2)),
        (.bin .add (.bin .mul (.int 2) (.var n!"qq")) (.str n!"::c4")) : (.bin .mul (.var n!"prefactor") (.neg (.idx (.idx (.var n!"C") (.fstr es![(.str n!"V8"), (.var n!"dd"), (.str n!"LR")])) (.bin .add (.var n!"ij") (.var n!"ij"))))),
        (.bin .add (.bin .mul (.int 2) (.var n!"qq")) (.str n!"::c5")) : (.bin .mul (.var n!"prefactor") (.bin .add (.bin .mul (.neg (.int 2)) (.idx (.idx (.var n!"C") (.fstr es![(.str n!"V1"), (.var n!"dd"), (.str n!"LR")])) (.bin .add (.var n!"ij") (.var n!"ij")))) (.bin .div (.idx (.idx (.var n!"C") (.fstr es![(.str n!"V8"), (.var n!"dd"), (.str n!"LR")])) (.bin .add (.var n!"ij") (.var n!"ij"))) (.var n!"Nc")))),
        (.bin .add (.bin .mul (.int 2) (.var n!"qq")) (.str n!"::c1'")) : (.bin .mul (.var n!"prefactor") (.idx (.idx (.var n!"C") (.fstr es![(.str n!"V"), (.var n!"dd"), (.str n!"RR")])) (.bin .add (.var n!"ij") (.var n!"ij")))),
        (.bin .add (.bin .mul (.int 2) (.var n!"qq")) (.str n!"::c2'")) : (.bin .mul (.var n!"prefactor") (.bin .sub (.idx (.idx (.var n!"C") (.fstr es![(.str n!"S1"), (.var n!"dd"), (.str n!"RR")])) (.bin .add (.var n!"ij") (.var n!"ij"))) (.bin .div (.idx (.idx (.var n!"C") (.fstr es![(.str n!"S8"), (.var n!"dd"), (.str n!"RR")])) (.bin .add (.var n!"ij") (.var n!"ij"))) (.bin .mul (.int 2) (.var n!"Nc"))))),
        (.bin .add (.bin .mul (.int 2) (.var n!"qq")) (.str n!"::c3'")) : (.bin .div (.bin .mul (.var n!"prefactor") (.idx (.idx (.var n!"C") (.fstr es![(.str n!"S8"), (.var n!"dd"), (.str n!"RR")])) (.bin .add (.var n!"ij") (.var n!"ij")))) (.int 2))]),
    .ret (.var n!"d")]⟩

/-- wet.py:113-129 `_BernI_to_Flavio_I` -/
def fn_BernI_to_Flavio_I : Fn := ⟨n!"_BernI_to_Flavio_I", [n!"C", n!"qq"],
  st![.assign n!"qqf" (.rev (.var n!"qq")),
    .ite (.bin .isin (.var n!"qq") (.list es![(.str n!"sb"), (.str n!"db"), (.str n!"ds"), (.str n!"cu")])) st![.ret (.dict kv![
        (.bin .add (.str n!"CVLL_") (.bin .mul (.int 2) (.var n!"qqf"))) : (.idx (.var n!"C") (.bin .add (.str n!"1") (.bin .mul (.int 2) (.var n!"qq")))),
        (.bin .add (.str n!"CSLL_") (.bin .mul (.int 2) (.var n!"qqf"))) : (.bin .sub (.idx (.var n!"C") (.bin .add (.str n!"2") (.bin .mul (.int 2) (.var n!"qq")))) (.bin .mul (.bin .div (.int 1) (.int 2)) (.idx (.var n!"C") (.bin .add (.str n!"3") (.bin .mul (.int 2) (.var n!"qq")))))),
        (.bin .add (.str n!"CTLL_") (.bin .mul (.int 2) (.var n!"qqf"))) : (.bin .mul (.bin .div (.neg (.int 1)) (.int 8)) (.idx (.var n!"C") (.bin .add (.str n!"3") (.bin .mul (.int 2) (.var n!"qq"))))),
        (.bin .add (.str n!"CVLR_") (.bin .mul (.int 2) (.var n!"qqf"))) : (.bin .mul (.bin .div (.neg (.int 1)) (.int 2)) (.idx (.var n!"C") (.bin .add (.str n!"5") (.bin .mul (.int 2) (.var n!"qq"))))),
        (.bin .add (.str n!"CVRR_") (.bin .mul (.int 2) (.var n!"qqf"))) : (.idx (.var n!"C") (.bin .add (.str n!"1p") (.bin .mul (.int 2) (.var n!"qq")))),
        (.bin .add (.str n!"CSRR_") (.bin .mul (.int 2) (.var n!"qqf"))) : (.bin .sub (.idx (.var n!"C") (.bin .add (.str n!"2p") (.bin .mul (.int 2) (.var n!"qq")))) (.bin .mul (.bin .div (.int 1) (.int 2)) (.idx (.var n!"C") (.bin .add (.str n!"3p") (.bin .mul (.int 2) (.var n!"qq")))))),
        (.bin .add (.str n!"CTRR_") (.bin .mul (.int 2) (.var n!"qqf"))) : (.bin .mul (.bin .div (.neg (.int 1)) (.int 8)) (.idx (.var n!"C") (.bin .add (.str n!"3p") (.bin .mul (.int 2) (.var n!"qq"))))),
        (.bin .add (.str n!"CSLR_") (.bin .mul (.int 2) (.var n!"qqf"))) : (.idx (.var n!"C") (.bin .add (.str n!"4") (.bin .mul (.int 2) (.var n!"qq"))))])] st![.raise]]⟩

/-- wet.py:132-148 `_FlavioI_to_Bern_I` -/
def fn_FlavioI_to_Bern_I : Fn := ⟨n!"_FlavioI_to_Bern_I", [n!"C", n!"qq"],
  st![.assign n!"qqb" (.rev (.var n!"qq")),
    .ite (.bin .isin (.var n!"qq") (.list es![(.str n!"bs"), (.str n!"bd"), (.str n!"sd"), (.str n!"uc")])) st![.ret (.dict kv![
        (.bin .add (.str n!"1") (.bin .mul (.int 2) (.var n!"qqb"))) : (.idx (.var n!"C") (.bin .add (.str n!"CVLL_") (.bin .mul (.int 2) (.var n!"qq")))),
        (.bin .add (.str n!"2") (.bin .mul (.int 2) (.var n!"qqb"))) : (.bin .sub (.idx (.var n!"C") (.bin .add (.str n!"CSLL_") (.bin .mul (.int 2) (.var n!"qq")))) (.bin .mul (.int 4) (.idx (.var n!"C") (.bin .add (.str n!"CTLL_") (.bin .mul (.int 2) (.var n!"qq")))))),
        (.bin .add (.str n!"3") (.bin .mul (.int 2) (.var n!"qqb"))) : (.bin .mul (.neg (.int 8)) (.idx (.var n!"C") (.bin .add (.str n!"CTLL_") (.bin .mul (.int 2) (.var n!"qq"))))),
        (.bin .add (.str n!"4") (.bin .mul (.int 2) (.var n!"qqb"))) : (.idx (.var n!"C") (.bin .add (.str n!"CSLR_") (.bin .mul (.int 2) (.var n!"qq")))),
        (.bin .add (.str n!"5") (.bin .mul (.int 2) (.var n!"qqb"))) : (.bin .mul (.neg (.int 2)) (.idx (.var n!"C") (.bin .add (.str n!"CVLR_") (.bin .mul (.int 2) (.var n!"qq"))))),
        (.bin .add (.str n!"1p") (.bin .mul (.int 2) (.var n!"qqb"))) : (.idx (.var n!"C") (.bin .add (.str n!"CVRR_") (.bin .mul (.int 2) (.var n!"qq")))),
        (.bin .add (.str n!"2p") (.bin .mul (.int 2) (.var n!"qqb"))) : (.bin .sub (.idx (.var n!"C") (.bin .add (.str n!"CSRR_") (.bin .mul (.int 2) (.var n!"qq")))) (.bin .mul (.int 4) (.idx (.var n!"C") (.bin .add (.str n!"CTRR_") (.bin .mul (.int 2) (.var n!"qq")))))),
        (.bin .add (.str n!"3p") (.bin .mul (.int 2) (.var n!"qqb"))) : (.bin .mul (.neg (.int 8)) (.idx (.var n!"C") (.bin .add (.str n!"CTRR_") (.bin .mul (.int 2) (.var n!"qq")))))])] st![.raise]]⟩

/-- wet.py:151-178 `_BernI_to_FormFlavor_I` -/
def fn_BernI_to_FormFlavor_I : Fn := ⟨n!"_BernI_to_FormFlavor_I", [n!"C", n!"qq"],
  st![.assign n!"qqf" (.rev (.var n!"qq")),
    .ite (.bin .isin (.var n!"qq") (.list es![(.str n!"sb"), (.str n!"db"), (.str n!"ds")])) st![.ret (.dict kv![
        (.bin .add (.str n!"CVLL_") (.bin .mul (.int 2) (.var n!"qqf"))) : (.idx (.var n!"C") (.bin .add (.str n!"1") (.bin .mul (.int 2) (.var n!"qq")))),
        (.bin .add (.str n!"CSLL_") (.bin .mul (.int 2) (.var n!"qqf"))) : (.bin .add (.idx (.var n!"C") (.bin .add (.str n!"2") (.bin .mul (.int 2) (.var n!"qq")))) (.bin .mul (.bin .div (.int 1) (.int 2)) (.idx (.var n!"C") (.bin .add (.str n!"3") (.bin .mul (.int 2) (.var n!"qq")))))),
        (.bin .add (.str n!"CTLL_") (.bin .mul (.int 2) (.var n!"qqf"))) : (.bin .mul (.bin .div (.neg (.int 1)) (.int 8)) (.idx (.var n!"C") (.bin .add (.str n!"3") (.bin .mul (.int 2) (.var n!"qq"))))),
        (.bin .add (.str n!"CVLR_") (.bin .mul (.int 2) (.var n!"qqf"))) : (.bin .mul (.bin .div (.neg (.int 1)) (.int 2)) (.idx (.var n!"C") (.bin .add (.str n!"5") (.bin .mul (.int 2) (.var n!"qq"))))),
        (.bin .add (.str n!"CVRR_") (.bin .mul (.int 2) (.var n!"qqf"))) : (.idx (.var n!"C") (.bin .add (.str n!"1p") (.bin .mul (.int 2) (.var n!"qq")))),
        (.bin .add (.str n!"CSRR_") (.bin .mul (.int 2) (.var n!"qqf"))) : (.bin .add (.idx (.var n!"C") (.bin .add (.str n!"2p") (.bin .mul (.int 2) (.var n!"qq")))) (.bin .mul (.bin .div (.int 1) (.int 2)) (.idx (.var n!"C") (.bin .add (.str n!"3p") (.bin .mul (.int 2) (.var n!"qq")))))),
        (.bin .add (.str n!"CTRR_") (.bin .mul (.int 2) (.var n!"qqf"))) : (.bin .mul (.bin .div (.neg (.int 1)) (.int 8)) (.idx (.var n!"C") (.bin .add (.str n!"3p") (.bin .mul (.int 2) (.var n!"qq"))))),
        (.bin .add (.str n!"CSLR_") (.bin .mul (.int 2) (.var n!"qqf"))) : (.idx (.var n!"C") (.bin .add (.str n!"4") (.bin .mul (.int 2) (.var n!"qq"))))])] st![.ite (.bin .eq (.var n!"qq") (.str n!"cu")) st![.ret (.dict kv![
        (.bin .add (.str n!"CVLL_") (.bin .mul (.int 2) (.var n!"qq"))) : (.meth (.idx (.var n!"C") (.bin .add (.str n!"1") (.bin .mul (.int 2) (.var n!"qq")))) n!"conj" es![]),
        (.bin .add (.str n!"CSLL_") (.bin .mul (.int 2) (.var n!"qq"))) : (.bin .add (.idx (.var n!"C") (.bin .add (.str n!"2") (.bin .mul (.int 2) (.var n!"qq")))) (.bin .mul (.bin .div (.int 1) (.int 2)) (.meth (.idx (.var n!"C") (.bin .add (.str n!"3") (.bin .mul (.int 2) (.var n!"qq")))) n!"conj" es![]))),
        (.bin .add (.str n!"CTLL_") (.bin .mul (.int 2) (.var n!"qq"))) : (.bin .mul (.bin .div (.neg (.int 1)) (.int 8)) (.meth (.idx (.var n!"C") (.bin .add (.str n!"3") (.bin .mul (.int 2) (.var n!"qq")))) n!"conj" es![])),
        (.bin .add (.str n!"CVLR_") (.bin .mul (.int 2) (.var n!"qq"))) : (.bin .mul (.bin .div (.neg (.int 1)) (.int 2)) (.meth (.idx (.var n!"C") (.bin .add (.str n!"5") (.bin .mul (.int 2) (.var n!"qq")))) n!"conj" es![])),
        (.bin .add (.str n!"CVRR_") (.bin .mul (.int 2) (.var n!"qq"))) : (.meth (.idx (.var n!"C") (.bin .add (.str n!"1p") (.bin .mul (.int 2) (.var n!"qq")))) n!"conj" es![]),
        (.bin .add (.str n!"CSRR_") (.bin .mul (.int 2) (.var n!"qq"))) : (.bin .add (.meth (.idx (.var n!"C") (.bin .add (.str n!"2p") (.bin .mul (.int 2) (.var n!"qq")))) n!"conj" es![]) (.bin .mul (.bin .div (.int 1) (.int 2)) (.meth (.idx (.var n!"C") (.bin .add (.str n!"3p") (.bin .mul (.int 2) (.var n!"qq")))) n!"conj" es![]))),
        (.bin .add (.str n!"CTRR_") (.bin .mul (.int 2) (.var n!"qq"))) : (.bin .mul (.bin .div (.neg (.int 1)) (.int 8)) (.idx (.var n!"C") (.bin .add (.str n!"3p") (.bin .mul (.int 2) (.var n!"qq"))))),
        (.bin .add (.str n!"CSLR_") (.bin .mul (.int 2) (.var n!"qq"))) : (.meth (.idx (.var n!"C") (.bin .add (.str n!"4") (.bin .mul (.int 2) (.var n!"qq")))) n!"conj" es![])])] st![.raise]]]⟩

/-- wet.py:183-198 `_JMS_to_Bern_II` -/
def fn_JMS_to_Bern_II : Fn := ⟨n!"_JMS_to_Bern_II", [n!"C", n!"udlnu"],
  st![.assign n!"u" (.idx (.var n!"uflav") (.idx (.var n!"udlnu") (.int 0))),
    .assign n!"d" (.idx (.var n!"dflav") (.idx (.var n!"udlnu") (.int 1))),
    .assign n!"l" (.idx (.var n!"lflav") (.slice (.var n!"udlnu") (.int 4) (.meth (.var n!"udlnu") n!"find" es![(.str n!"n")]))),
    .assign n!"lp" (.idx (.var n!"lflav") (.slice (.var n!"udlnu") (.bin .add (.meth (.var n!"udlnu") n!"find" es![(.str n!"_"), (.int 5)]) (.int 1)) (.call n!"len" es![(.var n!"udlnu")]))),
    .assign n!"ind" (.bin .add (.bin .add (.bin .add (.idx (.var n!"udlnu") (.int 0)) (.idx (.var n!"udlnu") (.int 1))) (.slice (.var n!"udlnu") (.int 4) (.meth (.var n!"udlnu") n!"find" es![(.str n!"n")]))) (.slice (.var n!"udlnu") (.bin .add (.meth (.var n!"udlnu") n!"find" es![(.str n!"_"), (.int 5)]) (.int 1)) (.call n!"len" es![(.var n!"udlnu")]))),
    .ret (.dict kv![
        (.bin .add (.str n!"1") (.var n!"ind")) : (.meth (.idx (.idx (.var n!"C") (.str n!"VnueduLL")) (.list es![(.var n!"lp"), (.var n!"l"), (.var n!"d"), (.var n!"u")])) n!"conj" es![]),
        (.bin .add (.str n!"5") (.var n!"ind")) : (.meth (.idx (.idx (.var n!"C") (.str n!"SnueduRL")) (.list es![(.var n!"lp"), (.var n!"l"), (.var n!"d"), (.var n!"u")])) n!"conj" es![]),
        (.bin .add (.str n!"1p") (.var n!"ind")) : (.meth (.idx (.idx (.var n!"C") (.str n!"VnueduLR")) (.list es![(.var n!"lp"), (.var n!"l"), (.var n!"d"), (.var n!"u")])) n!"conj" es![]),
        (.bin .add (.str n!"5p") (.var n!"ind")) : (.meth (.idx (.idx (.var n!"C") (.str n!"SnueduRR")) (.list es![(.var n!"lp"), (.var n!"l"), (.var n!"d"), (.var n!"u")])) n!"conj" es![]),
        (.bin .add (.str n!"7p") (.var n!"ind")) : (.meth (.idx (.idx (.var n!"C") (.str n!"TnueduRR")) (.list es![(.var n!"lp"), (.var n!"l"), (.var n!"d"), (.var n!"u")])) n!"conj" es![])])]⟩

/-- wet.py:201-216 `_Bern_to_JMS_II` -/
def fn_Bern_to_JMS_II : Fn := ⟨n!"_Bern_to_JMS_II", [n!"C", n!"udlnu"],
  st![.assign n!"u" (.idx (.var n!"uflav") (.idx (.var n!"udlnu") (.int 0))),
    .assign n!"d" (.idx (.var n!"dflav") (.idx (.var n!"udlnu") (.int 1))),
    .assign n!"l" (.idx (.var n!"lflav") (.slice (.var n!"udlnu") (.int 4) (.meth (.var n!"udlnu") n!"find" es![(.str n!"n")]))),
    .assign n!"lp" (.idx (.var n!"lflav") (.slice (.var n!"udlnu") (.bin .add (.meth (.var n!"udlnu") n!"find" es![(.str n!"_"), (.int 5)]) (.int 1)) (.call n!"len" es![(.var n!"udlnu")]))),
    .assign n!"ind" (.bin .add (.bin .add (.bin .add (.idx (.var n!"udlnu") (.int 0)) (.idx (.var n!"udlnu") (.int 1))) (.slice (.var n!"udlnu") (.int 4) (.meth (.var n!"udlnu") n!"find" es![(.str n!"n")]))) (.slice (.var n!"udlnu") (.bin .add (.meth (.var n!"udlnu") n!"find" es![(.str n!"_"), (.int 5)]) (.int 1)) (.call n!"len" es![(.var n!"udlnu")]))),
    .ret (.dict kv![
        (.fstr es![(.str n!"VnueduLL_"), (.bin .add (.var n!"lp") (.int 1)), (.bin .add (.var n!"l") (.int 1)), (.bin .add (.var n!"d") (.int 1)), (.bin .add (.var n!"u") (.int 1))]) : (.meth (.idx (.var n!"C") (.bin .add (.str n!"1") (.var n!"ind"))) n!"conj" es![]),
        (.fstr es![(.str n!"SnueduRL_"), (.bin .add (.var n!"lp") (.int 1)), (.bin .add (.var n!"l") (.int 1)), (.bin .add (.var n!"d") (.int 1)), (.bin .add (.var n!"u") (.int 1))]) : (.meth (.idx (.var n!"C") (.bin .add (.str n!"5") (.var n!"ind"))) n!"conj" es![]),
        (.fstr es![(.str n!"VnueduLR_"), (.bin .add (.var n!"lp") (.int 1)), (.bin .add (.var n!"l") (.int 1)), (.bin .add (.var n!"d") (.int 1)), (.bin .add (.var n!"u") (.int 1))]) : (.meth (.idx (.var n!"C") (.bin .add (.str n!"1p") (.var n!"ind"))) n!"conj" es![]),
        (.fstr es![(.str n!"SnueduRR_"), (.bin .add (.var n!"lp") (.int 1)), (.bin .add (.var n!"l") (.int 1)), (.bin .add (.var n!"d") (.int 1)), (.bin .add (.var n!"u") (.int 1))]) : (.meth (.idx (.var n!"C") (.bin .add (.str n!"5p") (.var n!"ind"))) n!"conj" es![]),
        (.fstr es![(.str n!"TnueduRR_"), (.bin .add (.var n!"lp") (.int 1)), (.bin .add (.var n!"l") (.int 1)), (.bin .add (.var n!"d") (.int 1)), (.bin .add (.var n!"u") (.int 1))]) : (.meth (.idx (.var n!"C") (.bin .add (.str n!"7p") (.var n!"ind"))) n!"conj" es![])])]⟩

/-- wet.py:219-241 `_BernII_to_Flavio_II` -/
def fn_BernII_to_Flavio_II : Fn := ⟨n!"_BernII_to_Flavio_II", [n!"C", n!"udlnu", n!"parameters"],
  st![.assign n!"p" (.var n!"parameters"),
    .assign n!"u" (.idx (.var n!"uflav") (.idx (.var n!"udlnu") (.int 0))),
    .assign n!"d" (.idx (.var n!"dflav") (.idx (.var n!"udlnu") (.int 1))),
    .assign n!"l" (.idx (.var n!"lflav") (.slice (.var n!"udlnu") (.int 4) (.meth (.var n!"udlnu") n!"find" es![(.str n!"n")]))),
    .assign n!"lp" (.idx (.var n!"lflav") (.slice (.var n!"udlnu") (.bin .add (.meth (.var n!"udlnu") n!"find" es![(.str n!"_"), (.int 5)]) (.int 1)) (.call n!"len" es![(.var n!"udlnu")]))),
    .assign n!"ind" (.bin .add (.bin .add (.bin .add (.idx (.var n!"udlnu") (.int 0)) (.idx (.var n!"udlnu") (.int 1))) (.slice (.var n!"udlnu") (.int 4) (.meth (.var n!"udlnu") n!"find" es![(.str n!"n")]))) (.slice (.var n!"udlnu") (.bin .add (.meth (.var n!"udlnu") n!"find" es![(.str n!"_"), (.int 5)]) (.int 1)) (.call n!"len" es![(.var n!"udlnu")]))),
    .assign n!"ind2" (.bin .add (.bin .add (.bin .add (.bin .add (.idx (.var n!"udlnu") (.int 1)) (.idx (.var n!"udlnu") (.int 0))) (.slice (.var n!"udlnu") (.int 4) (.meth (.var n!"udlnu") n!"find" es![(.str n!"n")]))) (.str n!"nu")) (.slice (.var n!"udlnu") (.bin .add (.meth (.var n!"udlnu") n!"find" es![(.str n!"_"), (.int 5)]) (.int 1)) (.call n!"len" es![(.var n!"udlnu")]))),
    .assign n!"dic" (.dict kv![
        (.bin .add (.str n!"CVL_") (.var n!"ind2")) : (.idx (.var n!"C") (.bin .add (.str n!"1") (.var n!"ind"))),
        (.bin .add (.str n!"CVR_") (.var n!"ind2")) : (.idx (.var n!"C") (.bin .add (.str n!"1p") (.var n!"ind"))),
        (.bin .add (.str n!"CSR_") (.var n!"ind2")) : (.idx (.var n!"C") (.bin .add (.str n!"5") (.var n!"ind"))),
        (.bin .add (.str n!"CSL_") (.var n!"ind2")) : (.idx (.var n!"C") (.bin .add (.str n!"5p") (.var n!"ind"))),
        (.bin .add (.str n!"CT_") (.var n!"ind2")) : (.idx (.var n!"C") (.bin .add (.str n!"7p") (.var n!"ind")))]),
    .assign n!"V" (.call n!"ckmutil.ckm.ckm_tree" es![(.idx (.var n!"p") (.str n!"Vus")), (.idx (.var n!"p") (.str n!"Vub")), (.idx (.var n!"p") (.str n!"Vcb")), (.idx (.var n!"p") (.str n!"gamma"))]),
    .assign n!"prefactor" (.bin .div (.bin .div (.bin .div (.neg (.call n!"sqrt" es![(.int 2)])) (.idx (.var n!"p") (.str n!"GF"))) (.idx (.var n!"V") (.list es![(.var n!"u"), (.var n!"d")]))) (.int 4)),
    .ret (.dcomp n!"k" n!"v" (.var n!"dic") (.var n!"k") (.bin .mul (.var n!"prefactor") (.var n!"v")))]⟩

/-- wet.py:244-266 `_FlavioII_to_BernII` -/
def fn_FlavioII_to_BernII : Fn := ⟨n!"_FlavioII_to_BernII", [n!"C", n!"udlnu", n!"parameters"],
  st![.assign n!"p" (.var n!"parameters"),
    .assign n!"u" (.idx (.var n!"uflav") (.idx (.var n!"udlnu") (.int 0))),
    .assign n!"d" (.idx (.var n!"dflav") (.idx (.var n!"udlnu") (.int 1))),
    .assign n!"l" (.idx (.var n!"lflav") (.slice (.var n!"udlnu") (.int 4) (.meth (.var n!"udlnu") n!"find" es![(.str n!"n")]))),
    .assign n!"lp" (.idx (.var n!"lflav") (.slice (.var n!"udlnu") (.bin .add (.meth (.var n!"udlnu") n!"find" es![(.str n!"_"), (.int 5)]) (.int 1)) (.call n!"len" es![(.var n!"udlnu")]))),
    .assign n!"ind" (.bin .add (.bin .add (.bin .add (.idx (.var n!"udlnu") (.int 0)) (.idx (.var n!"udlnu") (.int 1))) (.slice (.var n!"udlnu") (.int 4) (.meth (.var n!"udlnu") n!"find" es![(.str n!"n")]))) (.slice (.var n!"udlnu") (.bin .add (.meth (.var n!"udlnu") n!"find" es![(.str n!"_"), (.int 5)]) (.int 1)) (.call n!"len" es![(.var n!"udlnu")]))),
    .assign n!"ind2" (.bin .add (.bin .add (.bin .add (.bin .add (.idx (.var n!"udlnu") (.int 1)) (.idx (.var n!"udlnu") (.int 0))) (.slice (.var n!"udlnu") (.int 4) (.meth (.var n!"udlnu") n!"find" es![(.str n!"n")]))) (.str n!"nu")) (.slice (.var n!"udlnu") (.bin .add (.meth (.var n!"udlnu") n!"find" es![(.str n!"_"), (.int 5)]) (.int 1)) (.call n!"len" es![(.var n!"udlnu")]))),
    .assign n!"dic" (.dict kv![
        (.bin .add (.str n!"1") (.var n!"ind")) : (.idx (.var n!"C") (.bin .add (.str n!"CVL_") (.var n!"ind2"))),
        (.bin .add (.str n!"1p") (.var n!"ind")) : (.idx (.var n!"C") (.bin .add (.str n!"CVR_") (.var n!"ind2"))),
        (.bin .add (.str n!"5") (.var n!"ind")) : (.idx (.var n!"C") (.bin .add (.str n!"CSR_") (.var n!"ind2"))),
        (.bin .add (.str n!"5p") (.var n!"ind")) : (.idx (.var n!"C") (.bin .add (.str n!"CSL_") (.var n!"ind2"))),
        (.bin .add (.str n!"7p") (.var n!"ind")) : (.idx (.var n!"C") (.bin .add (.str n!"CT_") (.var n!"ind2")))]),
    .assign n!"V" (.call n!"ckmutil.ckm.ckm_tree" es![(.idx (.var n!"p") (.str n!"Vus")), (.idx (.var n!"p") (.str n!"Vub")), (.idx (.var n!"p") (.str n!"Vcb")), (.idx (.var n!"p") (.str n!"gamma"))]),
    .assign n!"prefactor" (.bin .div (.bin .div (.bin .div (.neg (.call n!"sqrt" es![(.int 2)])) (.idx (.var n!"p") (.str n!"GF"))) (.idx (.var n!"V") (.list es![(.var n!"u"), (.var n!"d")]))) (.int 4)),
    .ret (.dcomp n!"k" n!"v" (.var n!"dic") (.var n!"k") (.bin .div (.var n!"v") (.var n!"prefactor")))]⟩

/-- wet.py:269-289 `_BernII_to_EOS_II` -/
def fn_BernII_to_EOS_II : Fn := ⟨n!"_BernII_to_EOS_II", [n!"C", n!"udlnu", n!"parameters"],
  st![.assign n!"p" (.var n!"parameters"),
    .assign n!"u" (.idx (.var n!"uflav") (.idx (.var n!"udlnu") (.int 0))),
    .assign n!"d" (.idx (.var n!"dflav") (.idx (.var n!"udlnu") (.int 1))),
    .assign n!"l" (.idx (.var n!"lflav") (.slice (.var n!"udlnu") (.int 4) (.meth (.var n!"udlnu") n!"find" es![(.str n!"n")]))),
    .assign n!"lp" (.idx (.var n!"lflav") (.slice (.var n!"udlnu") (.bin .add (.meth (.var n!"udlnu") n!"find" es![(.str n!"_"), (.int 5)]) (.int 1)) (.call n!"len" es![(.var n!"udlnu")]))),
    .assign n!"ind" (.bin .add (.bin .add (.bin .add (.idx (.var n!"udlnu") (.int 0)) (.idx (.var n!"udlnu") (.int 1))) (.slice (.var n!"udlnu") (.int 4) (.meth (.var n!"udlnu") n!"find" es![(.str n!"n")]))) (.slice (.var n!"udlnu") (.bin .add (.meth (.var n!"udlnu") n!"find" es![(.str n!"_"), (.int 5)]) (.int 1)) (.call n!"len" es![(.var n!"udlnu")]))),
    .assign n!"ind2" (.bin .add (.bin .add (.bin .add (.slice (.var n!"udlnu") (.int 0) (.int 2)) (.slice (.var n!"udlnu") (.int 4) (.meth (.var n!"udlnu") n!"find" es![(.str n!"n")]))) (.str n!"nu")) (.slice (.var n!"udlnu") (.bin .add (.meth (.var n!"udlnu") n!"find" es![(.str n!"_"), (.int 5)]) (.int 1)) (.call n!"len" es![(.var n!"udlnu")]))),
    .assign n!"dic" (.dict kv![
        (.bin .add (.var n!"ind2") (.str n!"::cVL")) : (.idx (.var n!"C") (.bin .add (.str n!"1") (.var n!"ind"))),
        (.bin .add (.var n!"ind2") (.str n!"::cVR")) : (.idx (.var n!"C") (.bin .add (.str n!"1p") (.var n!"ind"))),
        (.bin .add (.var n!"ind2") (.str n!"::cSR")) : (.idx (.var n!"C") (.bin .add (.str n!"5") (.var n!"ind"))),
        (.bin .add (.var n!"ind2") (.str n!"::cSL")) : (.idx (.var n!"C") (.bin .add (.str n!"5p") (.var n!"ind"))),
        (.bin .add (.var n!"ind2") (.str n!"::cT")) : (.idx (.var n!"C") (.bin .add (.str n!"7p") (.var n!"ind")))]),
    .assign n!"V" (.call n!"ckmutil.ckm.ckm_tree" es![(.idx (.var n!"p") (.str n!"Vus")), (.idx (.var n!"p") (.str n!"Vub")), (.idx (.var n!"p") (.str n!"Vcb")), (.idx (.var n!"p") (.str n!"gamma"))]),
    .assign n!"prefactor" (.bin .div (.bin .div (.bin .div (.neg (.call n!"sqrt" es![(.int 2)])) (.idx (.var n!"p") (.str n!"GF"))) (.idx (.var n!"V") (.list es![(.var n!"u"), (.var n!"d")]))) (.int 4)),
    .ret (.dcomp n!"k" n!"v" (.var n!"dic") (.var n!"k") (.bin .mul (.var n!"prefactor") (.var n!"v")))]⟩

/-- wet.py:294-440 `_Fierz_to_JMS_III_IV_V` -/
def fn_Fierz_to_JMS_III_IV_V : Fn := ⟨n!"_Fierz_to_JMS_III_IV_V", [n!"Fqqqq", n!"qqqq"],
  st![.assign n!"F" (.meth (.var n!"Fqqqq") n!"copy" es![]),
    .assign n!"classIII" (.list es![(.str n!"sbuc"), (.str n!"sbcu"), (.str n!"dbuc"), (.str n!"dbcu"), (.str n!"dsuc"), (.str n!"dscu")]),
    .assign n!"classVdduu" (.list es![(.str n!"sbuu"), (.str n!"dbuu"), (.str n!"dsuu"), (.str n!"sbcc"), (.str n!"dbcc"), (.str n!"dscc")]),
    .ite (.bin .isin (.var n!"qqqq") (.bin .add (.var n!"classIII") (.var n!"classVdduu"))) st![.assign n!"f1" (.call n!"str" es![(.bin .add (.idx (.var n!"dflav") (.idx (.var n!"qqqq") (.int 0))) (.int 1))]),
      .assign n!"f2" (.call n!"str" es![(.bin .add (.idx (.var n!"dflav") (.idx (.var n!"qqqq") (.int 1))) (.int 1))]),
      .assign n!"f3" (.call n!"str" es![(.bin .add (.idx (.var n!"uflav") (.idx (.var n!"qqqq") (.int 2))) (.int 1))]),
      .assign n!"f4" (.call n!"str" es![(.bin .add (.idx (.var n!"uflav") (.idx (.var n!"qqqq") (.int 3))) (.int 1))]),
      .assign n!"d" (.dict kv![
        (.bin .add (.bin .add (.bin .add (.bin .add (.str n!"V1udLL_") (.var n!"f3")) (.var n!"f4")) (.var n!"f1")) (.var n!"f2")) : (.bin .add (.idx (.var n!"F") (.bin .add (.bin .add (.str n!"F") (.var n!"qqqq")) (.str n!"1"))) (.bin .div (.idx (.var n!"F") (.bin .add (.bin .add (.str n!"F") (.var n!"qqqq")) (.str n!"2"))) (.var n!"Nc"))),
        (.bin .add (.bin .add (.bin .add (.bin .add (.str n!"V8udLL_") (.var n!"f3")) (.var n!"f4")) (.var n!"f1")) (.var n!"f2")) : (.bin .mul (.int 2) (.idx (.var n!"F") (.bin .add (.bin .add (.str n!"F") (.var n!"qqqq")) (.str n!"2")))),
        (.bin .add (.bin .add (.bin .add (.bin .add (.str n!"V1duLR_") (.var n!"f1")) (.var n!"f2")) (.var n!"f3")) (.var n!"f4")) : (.bin .add (.idx (.var n!"F") (.bin .add (.bin .add (.str n!"F") (.var n!"qqqq")) (.str n!"3"))) (.bin .div (.idx (.var n!"F") (.bin .add (.bin .add (.str n!"F") (.var n!"qqqq")) (.str n!"4"))) (.var n!"Nc"))),
        (.bin .add (.bin .add (.bin .add (.bin .add (.str n!"V8duLR_") (.var n!"f1")) (.var n!"f2")) (.var n!"f3")) (.var n!"f4")) : (.bin .mul (.int 2) (.idx (.var n!"F") (.bin .add (.bin .add (.str n!"F") (.var n!"qqqq")) (.str n!"4")))),
        (.bin .add (.bin .add (.bin .add (.bin .add (.str n!"S1udRR_") (.var n!"f3")) (.var n!"f4")) (.var n!"f1")) (.var n!"f2")) : (.bin .sub (.bin .sub (.bin .add (.idx (.var n!"F") (.bin .add (.bin .add (.str n!"F") (.var n!"qqqq")) (.str n!"5"))) (.bin .div (.idx (.var n!"F") (.bin .add (.bin .add (.str n!"F") (.var n!"qqqq")) (.str n!"6"))) (.var n!"Nc"))) (.bin .mul (.int 4) (.idx (.var n!"F") (.bin .add (.bin .add (.str n!"F") (.var n!"qqqq")) (.str n!"9"))))) (.bin .div (.bin .mul (.int 4) (.idx (.var n!"F") (.bin .add (.bin .add (.str n!"F") (.var n!"qqqq")) (.str n!"10")))) (.var n!"Nc"))),
        (.bin .add (.bin .add (.bin .add (.bin .add (.str n!"S8udRR_") (.var n!"f3")) (.var n!"f4")) (.var n!"f1")) (.var n!"f2")) : (.bin .sub (.bin .mul (.int 2) (.idx (.var n!"F") (.bin .add (.bin .add (.str n!"F") (.var n!"qqqq")) (.str n!"6")))) (.bin .mul (.int 8) (.idx (.var n!"F") (.bin .add (.bin .add (.str n!"F") (.var n!"qqqq")) (.str n!"10"))))),
        (.bin .add (.bin .add (.bin .add (.bin .add (.str n!"S1udduRR_") (.var n!"f3")) (.var n!"f2")) (.var n!"f1")) (.var n!"f4")) : (.bin .sub (.neg (.bin .div (.bin .mul (.int 8) (.idx (.var n!"F") (.bin .add (.bin .add (.str n!"F") (.var n!"qqqq")) (.str n!"9")))) (.var n!"Nc"))) (.bin .mul (.int 8) (.idx (.var n!"F") (.bin .add (.bin .add (.str n!"F") (.var n!"qqqq")) (.str n!"10"))))),
        (.bin .add (.bin .add (.bin .add (.bin .add (.str n!"V8udduLR_") (.var n!"f4")) (.var n!"f1")) (.var n!"f2")) (.var n!"f3")) : (.neg (.meth (.idx (.var n!"F") (.bin .add (.bin .add (.str n!"F") (.var n!"qqqq")) (.str n!"7"))) n!"conj" es![])),
        (.bin .add (.bin .add (.bin .add (.bin .add (.str n!"V1udduLR_") (.var n!"f4")) (.var n!"f1")) (.var n!"f2")) (.var n!"f3")) : (.bin .sub (.neg (.bin .div (.meth (.idx (.var n!"F") (.bin .add (.bin .add (.str n!"F") (.var n!"qqqq")) (.str n!"7"))) n!"conj" es![]) (.bin .mul (.int 2) (.var n!"Nc")))) (.bin .div (.meth (.idx (.var n!"F") (.bin .add (.bin .add (.str n!"F") (.var n!"qqqq")) (.str n!"8"))) n!"conj" es![]) (.int 2))),
        (.bin .add (.bin .add (.bin .add (.bin .add (.str n!"S8udduRR_") (.var n!"f3")) (.var n!"f2")) (.var n!"f1")) (.var n!"f4")) : (.bin .mul (.neg (.int 16)) (.idx (.var n!"F") (.bin .add (.bin .add (.str n!"F") (.var n!"qqqq")) (.str n!"9")))),
        (.bin .add (.bin .add (.bin .add (.bin .add (.str n!"V1udRR_") (.var n!"f3")) (.var n!"f4")) (.var n!"f1")) (.var n!"f2")) : (.bin .add (.idx (.var n!"F") (.bin .add (.bin .add (.str n!"F") (.var n!"qqqq")) (.str n!"1p"))) (.bin .div (.idx (.var n!"F") (.bin .add (.bin .add (.str n!"F") (.var n!"qqqq")) (.str n!"2p"))) (.var n!"Nc"))),
        (.bin .add (.bin .add (.bin .add (.bin .add (.str n!"V8udRR_") (.var n!"f3")) (.var n!"f4")) (.var n!"f1")) (.var n!"f2")) : (.bin .mul (.int 2) (.idx (.var n!"F") (.bin .add (.bin .add (.str n!"F") (.var n!"qqqq")) (.str n!"2p")))),
        (.bin .add (.bin .add (.bin .add (.bin .add (.str n!"V1udLR_") (.var n!"f3")) (.var n!"f4")) (.var n!"f1")) (.var n!"f2")) : (.bin .add (.idx (.var n!"F") (.bin .add (.bin .add (.str n!"F") (.var n!"qqqq")) (.str n!"3p"))) (.bin .div (.idx (.var n!"F") (.bin .add (.bin .add (.str n!"F") (.var n!"qqqq")) (.str n!"4p"))) (.var n!"Nc"))),
        (.bin .add (.bin .add (.bin .add (.bin .add (.str n!"V8udLR_") (.var n!"f3")) (.var n!"f4")) (.var n!"f1")) (.var n!"f2")) : (.bin .mul (.int 2) (.idx (.var n!"F") (.bin .add (.bin .add (.str n!"F") (.var n!"qqqq")) (.str n!"4p")))),
        (.bin .add (.bin .add (.bin .add (.bin .add (.str n!"S1udRR_") (.var n!"f4")) (.var n!"f3")) (.var n!"f2")) (.var n!"f1")) : (.bin .sub (.bin .sub (.bin .add (.meth (.idx (.var n!"F") (.bin .add (.bin .add (.str n!"F") (.var n!"qqqq")) (.str n!"5p"))) n!"conj" es![]) (.bin .div (.meth (.idx (.var n!"F") (.bin .add (.bin .add (.str n!"F") (.var n!"qqqq")) (.str n!"6p"))) n!"conj" es![]) (.var n!"Nc"))) (.bin .mul (.int 4) (.meth (.idx (.var n!"F") (.bin .add (.bin .add (.str n!"F") (.var n!"qqqq")) (.str n!"9p"))) n!"conj" es![]))) (.bin .div (.bin .mul (.int 4) (.meth (.idx (.var n!"F") (.bin .add (.bin .add (.str n!"F") (.var n!"qqqq")) (.str n!"10p"))) n!"conj" es![])) (.var n!"Nc"))),
        (.bin .add (.bin .add (.bin .add (.bin .add (.str n!"S8udRR_") (.var n!"f4")) (.var n!"f3")) (.var n!"f2")) (.var n!"f1")) : (.bin .sub (.bin .mul (.int 2) (.meth (.idx (.var n!"F") (.bin .add (.bin .add (.str n!"F") (.var n!"qqqq")) (.str n!"6p"))) n!"conj" es![])) (.bin .mul (.int 8) (.meth (.idx (.var n!"F") (.bin .add (.bin .add (.str n!"F") (.var n!"qqqq")) (.str n!"10p"))) n!"conj" es![]))),
        (.bin .add (.bin .add (.bin .add (.bin .add (.str n!"S1udduRR_") (.var n!"f4")) (.var n!"f1")) (.var n!"f2")) (.var n!"f3")) : (.bin .sub (.neg (.bin .div (.bin .mul (.int 8) (.meth (.idx (.var n!"F") (.bin .add (.bin .add (.str n!"F") (.var n!"qqqq")) (.str n!"9p"))) n!"conj" es![])) (.var n!"Nc"))) (.bin .mul (.int 8) (.meth (.idx (.var n!"F") (.bin .add (.bin .add (.str n!"F") (.var n!"qqqq")) (.str n!"10p"))) n!"conj" es![]))),
        (.bin .add (.bin .add (.bin .add (.bin .add (.str n!"V8udduLR_") (.var n!"f3")) (.var n!"f2")) (.var n!"f1")) (.var n!"f4")) : (.neg (.idx (.var n!"F") (.bin .add (.bin .add (.str n!"F") (.var n!"qqqq")) (.str n!"7p")))),
        (.bin .add (.bin .add (.bin .add (.bin .add (.str n!"V1udduLR_") (.var n!"f3")) (.var n!"f2")) (.var n!"f1")) (.var n!"f4")) : (.bin .sub (.neg (.bin .div (.idx (.var n!"F") (.bin .add (.bin .add (.str n!"F") (.var n!"qqqq")) (.str n!"7p"))) (.bin .mul (.int 2) (.var n!"Nc")))) (.bin .div (.idx (.var n!"F") (.bin .add (.bin .add (.str n!"F") (.var n!"qqqq")) (.str n!"8p"))) (.int 2))),
        (.bin .add (.bin .add (.bin .add (.bin .add (.str n!"S8udduRR_") (.var n!"f4")) (.var n!"f1")) (.var n!"f2")) (.var n!"f3")) : (.bin .mul (.neg (.int 16)) (.meth (.idx (.var n!"F") (.bin .add (.bin .add (.str n!"F") (.var n!"qqqq")) (.str n!"9p"))) n!"conj" es![]))]),
      .ret (.call n!"symmetrize_JMS_dict" es![(.var n!"d")])] st![],
    .assign n!"classVuudd" (.list es![(.str n!"ucdd"), (.str n!"ucss"), (.str n!"ucbb")]),
    .ite (.bin .isin (.var n!"qqqq") (.var n!"classVuudd")) st![.assign n!"f3" (.call n!"str" es![(.bin .add (.idx (.var n!"uflav") (.idx (.var n!"qqqq") (.int 0))) (.int 1))]),
      .assign n!"f4" (.call n!"str" es![(.bin .add (.idx (.var n!"uflav") (.idx (.var n!"qqqq") (.int 1))) (.int 1))]),
      .assign n!"f1" (.call n!"str" es![(.bin .add (.idx (.var n!"dflav") (.idx (.var n!"qqqq") (.int 2))) (.int 1))]),
      .assign n!"f2" (.call n!"str" es![(.bin .add (.idx (.var n!"dflav") (.idx (.var n!"qqqq") (.int 3))) (.int 1))]),
      .assign n!"d" (.dict kv![
        (.bin .add (.bin .add (.bin .add (.bin .add (.str n!"V1udLL_") (.var n!"f3")) (.var n!"f4")) (.var n!"f1")) (.var n!"f2")) : (.bin .add (.idx (.var n!"F") (.bin .add (.bin .add (.str n!"F") (.var n!"qqqq")) (.str n!"1"))) (.bin .div (.idx (.var n!"F") (.bin .add (.bin .add (.str n!"F") (.var n!"qqqq")) (.str n!"2"))) (.var n!"Nc"))),
        (.bin .add (.bin .add (.bin .add (.bin .add (.str n!"V8udLL_") (.var n!"f3")) (.var n!"f4")) (.var n!"f1")) (.var n!"f2")) : (.bin .mul (.int 2) (.idx (.var n!"F") (.bin .add (.bin .add (.str n!"F") (.var n!"qqqq")) (.str n!"2")))),
        (.bin .add (.bin .add (.bin .add (.bin .add (.str n!"V1duLR_") (.var n!"f1")) (.var n!"f2")) (.var n!"f3")) (.var n!"f4")) : (.bin .add (.idx (.var n!"F") (.bin .add (.bin .add (.str n!"F") (.var n!"qqqq")) (.str n!"3p"))) (.bin .div (.idx (.var n!"F") (.bin .add (.bin .add (.str n!"F") (.var n!"qqqq")) (.str n!"4p"))) (.var n!"Nc"))),
        (.bin .add (.bin .add (.bin .add (.bin .add (.str n!"V8duLR_") (.var n!"f1")) (.var n!"f2")) (.var n!"f3")) (.var n!"f4")) : (.bin .mul (.int 2) (.idx (.var n!"F") (.bin .add (.bin .add (.str n!"F") (.var n!"qqqq")) (.str n!"4p")))),
        (.bin .add (.bin .add (.bin .add (.bin .add (.str n!"S1udRR_") (.var n!"f3")) (.var n!"f4")) (.var n!"f1")) (.var n!"f2")) : (.bin .sub (.bin .sub (.bin .add (.idx (.var n!"F") (.bin .add (.bin .add (.str n!"F") (.var n!"qqqq")) (.str n!"5"))) (.bin .div (.idx (.var n!"F") (.bin .add (.bin .add (.str n!"F") (.var n!"qqqq")) (.str n!"6"))) (.var n!"Nc"))) (.bin .mul (.int 4) (.idx (.var n!"F") (.bin .add (.bin .add (.str n!"F") (.var n!"qqqq")) (.str n!"9"))))) (.bin .div (.bin .mul (.int 4) (.idx (.var n!"F") (.bin .add (.bin .add (.str n!"F") (.var n!"qqqq")) (.str n!"10")))) (.var n!"Nc"))),
        (.bin .add (.bin .add (.bin .add (.bin .add (.str n!"S8udRR_") (.var n!"f3")) (.var n!"f4")) (.var n!"f1")) (.var n!"f2")) : (.bin .sub (.bin .mul (.int 2) (.idx (.var n!"F") (.bin .add (.bin .add (.str n!"F") (.var n!"qqqq")) (.str n!"6")))) (.bin .mul (.int 8) (.idx (.var n!"F") (.bin .add (.bin .add (.str n!"F") (.var n!"qqqq")) (.str n!"10"))))),
        (.bin .add (.bin .add (.bin .add (.bin .add (.str n!"S1udduRR_") (.var n!"f3")) (.var n!"f2")) (.var n!"f1")) (.var n!"f4")) : (.bin .sub (.neg (.bin .div (.bin .mul (.int 8) (.idx (.var n!"F") (.bin .add (.bin .add (.str n!"F") (.var n!"qqqq")) (.str n!"9")))) (.var n!"Nc"))) (.bin .mul (.int 8) (.idx (.var n!"F") (.bin .add (.bin .add (.str n!"F") (.var n!"qqqq")) (.str n!"10"))))),
        (.bin .add (.bin .add (.bin .add (.bin .add (.str n!"V8udduLR_") (.var n!"f4")) (.var n!"f1")) (.var n!"f2")) (.var n!"f3")) : (.neg (.meth (.idx (.var n!"F") (.bin .add (.bin .add (.str n!"F") (.var n!"qqqq")) (.str n!"7p"))) n!"conj" es![])),
        (.bin .add (.bin .add (.bin .add (.bin .add (.str n!"V1udduLR_") (.var n!"f4")) (.var n!"f1")) (.var n!"f2")) (.var n!"f3")) : (.bin .sub (.neg (.bin .div (.meth (.idx (.var n!"F") (.bin .add (.bin .add (.str n!"F") (.var n!"qqqq")) (.str n!"7p"))) n!"conj" es![]) (.bin .mul (.int 2) (.var n!"Nc")))) (.bin .div (.meth (.idx (.var n!"F") (.bin .add (.bin .add (.str n!"F") (.var n!"qqqq")) (.str n!"8p"))) n!"conj" es![]) (.int 2))),
        (.bin .add (.bin .add (.bin .add (.bin .add (.str n!"S8udduRR_") (.var n!"f3")) (.var n!"f2")) (.var n!"f1")) (.var n!"f4")) : (.bin .mul (.neg (.int 16)) (.idx (.var n!"F") (.bin .add (.bin .add (.str n!"F") (.var n!"qqqq")) (.str n!"9")))),
        (.bin .add (.bin .add (.bin .add (.bin .add (.str n!"V1udRR_") (.var n!"f3")) (.var n!"f4")) (.var n!"f1")) (.var n!"f2")) : (.bin .add (.idx (.var n!"F") (.bin .add (.bin .add (.str n!"F") (.var n!"qqqq")) (.str n!"1p"))) (.bin .div (.idx (.var n!"F") (.bin .add (.bin .add (.str n!"F") (.var n!"qqqq")) (.str n!"2p"))) (.var n!"Nc"))),
        (.bin .add (.bin .add (.bin .add (.bin .add (.str n!"V8udRR_") (.var n!"f3")) (.var n!"f4")) (.var n!"f1")) (.var n!"f2")) : (.bin .mul (.int 2) (.idx (.var n!"F") (.bin .add (.bin .add (.str n!"F") (.var n!"qqqq")) (.str n!"2p")))),
        (.bin .add (.bin .add (.bin .add (.bin .add (.str n!"V1udLR_") (.var n!"f3")) (.var n!"f4")) (.var n!"f1")) (.var n!"f2")) : (.bin .add (.idx (.var n!"F") (.bin .add (.bin .add (.str n!"F") (.var n!"qqqq")) (.str n!"3"))) (.bin .div (.idx (.var n!"F") (.bin .add (.bin .add (.str n!"F") (.var n!"qqqq")) (.str n!"4"))) (.var n!"Nc"))),
        (.bin .add (.bin .add (.bin .add (.bin .add (.str n!"V8udLR_") (.var n!"f3")) (.var n!"f4")) (.var n!"f1")) (.var n!"f2")) : (.bin .mul (.int 2) (.idx (.var n!"F") (.bin .add (.bin .add (.str n!"F") (.var n!"qqqq")) (.str n!"4")))),
        (.bin .add (.bin .add (.bin .add (.bin .add (.str n!"S1udRR_") (.var n!"f4")) (.var n!"f3")) (.var n!"f2")) (.var n!"f1")) : (.bin .sub (.bin .sub (.bin .add (.meth (.idx (.var n!"F") (.bin .add (.bin .add (.str n!"F") (.var n!"qqqq")) (.str n!"5p"))) n!"conj" es![]) (.bin .div (.meth (.idx (.var n!"F") (.bin .add (.bin .add (.str n!"F") (.var n!"qqqq")) (.str n!"6p"))) n!"conj" es![]) (.var n!"Nc"))) (.bin .mul (.int 4) (.meth (.idx (.var n!"F") (.bin .add (.bin .add (.str n!"F") (.var n!"qqqq")) (.str n!"9p"))) n!"conj" es![]))) (.bin .div (.bin .mul (.int 4) (.meth (.idx (.var n!"F") (.bin .add (.bin .add (.str n!"F") (.var n!"qqqq")) (.str n!"10p"))) n!"conj" es![])) (.var n!"Nc"))),
        (.bin .add (.bin .add (.bin .add (.bin .add (.str n!"S8udRR_") (.var n!"f4")) (.var n!"f3")) (.var n!"f2")) (.var n!"f1")) : (.bin .sub (.bin .mul (.int 2) (.meth (.idx (.var n!"F") (.bin .add (.bin .add (.str n!"F") (.var n!"qqqq")) (.str n!"6p"))) n!"conj" es![])) (.bin .mul (.int 8) (.meth (.idx (.var n!"F") (.bin .add (.bin .add (.str n!"F") (.var n!"qqqq")) (.str n!"10p"))) n!"conj" es![]))),
        (.bin .add (.bin .add (.bin .add (.bin .add (.str n!"S1udduRR_") (.var n!"f4")) (.var n!"f1")) (.var n!"f2")) (.var n!"f3")) : (.bin .sub (.neg (.bin .div (.bin .mul (.int 8) (.meth (.idx (.var n!"F") (.bin .add (.bin .add (.str n!"F") (.var n!"qqqq")) (.str n!"9p"))) n!"conj" es![])) (.var n!"Nc"))) (.bin .mul (.int 8) (.meth (.idx (.var n!"F") (.bin .add (.bin .add (.str n!"F") (.var n!"qqqq")) (.str n!"10p"))) n!"conj" es![]))),
        (.bin .add (.bin .add (.bin .add (.bin .add (.str n!"V8udduLR_") (.var n!"f3")) (.var n!"f2")) (.var n!"f1")) (.var n!"f4")) : (.neg (.idx (.var n!"F") (.bin .add (.bin .add (.str n!"F") (.var n!"qqqq")) (.str n!"7")))),
        (.bin .add (.bin .add (.bin .add (.bin .add (.str n!"V1udduLR_") (.var n!"f3")) (.var n!"f2")) (.var n!"f1")) (.var n!"f4")) : (.bin .sub (.neg (.bin .div (.idx (.var n!"F") (.bin .add (.bin .add (.str n!"F") (.var n!"qqqq")) (.str n!"7"))) (.bin .mul (.int 2) (.var n!"Nc")))) (.bin .div (.idx (.var n!"F") (.bin .add (.bin .add (.str n!"F") (.var n!"qqqq")) (.str n!"8"))) (.int 2))),
        (.bin .add (.bin .add (.bin .add (.bin .add (.str n!"S8udduRR_") (.var n!"f4")) (.var n!"f1")) (.var n!"f2")) (.var n!"f3")) : (.bin .mul (.neg (.int 16)) (.meth (.idx (.var n!"F") (.bin .add (.bin .add (.str n!"F") (.var n!"qqqq")) (.str n!"9p"))) n!"conj" es![]))]),
      .ret (.call n!"symmetrize_JMS_dict" es![(.var n!"d")])] st![],
    .assign n!"classIV" (.list es![(.str n!"sbsd"), (.str n!"dbds"), (.str n!"bsbd")]),
    .assign n!"classVdddd" (.list es![(.str n!"sbss"), (.str n!"dbdd"), (.str n!"dsdd"), (.str n!"sbbb"), (.str n!"dbbb"), (.str n!"dsss")]),
    .assign n!"classVddddind" (.list es![(.str n!"sbdd"), (.str n!"dsbb"), (.str n!"dbss")]),
    .assign n!"classVuuuu" (.list es![(.str n!"ucuu"), (.str n!"cucc"), (.str n!"uccc"), (.str n!"cuuu")]),
    .ite (.bin .isin (.var n!"qqqq") (.bin .add (.bin .add (.var n!"classVdddd") (.var n!"classIV")) (.var n!"classVuuuu"))) st![.for n!"key" (.var n!"F") st![.assert (.bin .eq (.bin .mod (.call n!"int" es![(.meth (.slice (.var n!"key") (.int 5) .none) n!"replace" es![(.str n!"p"), (.str n!"")])]) (.int 2)) (.int 1))],
      .for n!"p" (.list es![(.str n!""), (.str n!"p")]) st![.ite (.bin .isin (.var n!"qqqq") (.list es![(.str n!"sbbb"), (.str n!"dbbb"), (.str n!"dsss"), (.str n!"uccc")])) st![.setItem n!"F" (.bin .add (.bin .add (.bin .add (.str n!"F") (.var n!"qqqq")) (.str n!"2")) (.var n!"p")) (.idx (.var n!"F") (.bin .add (.bin .add (.bin .add (.str n!"F") (.var n!"qqqq")) (.str n!"1")) (.var n!"p"))),
          .setItem n!"F" (.bin .add (.bin .add (.bin .add (.str n!"F") (.var n!"qqqq")) (.str n!"4")) (.var n!"p")) (.bin .mul (.bin .div (.neg (.int 1)) (.int 2)) (.idx (.var n!"F") (.bin .add (.bin .add (.bin .add (.str n!"F") (.var n!"qqqq")) (.str n!"7")) (.var n!"p")))),
          .setItem n!"F" (.bin .add (.bin .add (.bin .add (.str n!"F") (.var n!"qqqq")) (.str n!"6")) (.var n!"p")) (.bin .sub (.bin .mul (.bin .div (.neg (.int 1)) (.int 2)) (.idx (.var n!"F") (.bin .add (.bin .add (.bin .add (.str n!"F") (.var n!"qqqq")) (.str n!"5")) (.var n!"p")))) (.bin .mul (.int 6) (.idx (.var n!"F") (.bin .add (.bin .add (.bin .add (.str n!"F") (.var n!"qqqq")) (.str n!"9")) (.var n!"p"))))),
          .setItem n!"F" (.bin .add (.bin .add (.bin .add (.str n!"F") (.var n!"qqqq")) (.str n!"8")) (.var n!"p")) (.bin .mul (.neg (.int 2)) (.idx (.var n!"F") (.bin .add (.bin .add (.bin .add (.str n!"F") (.var n!"qqqq")) (.str n!"3")) (.var n!"p")))),
          .setItem n!"F" (.bin .add (.bin .add (.bin .add (.str n!"F") (.var n!"qqqq")) (.str n!"10")) (.var n!"p")) (.bin .add (.bin .mul (.bin .div (.neg (.int 1)) (.int 8)) (.idx (.var n!"F") (.bin .add (.bin .add (.bin .add (.str n!"F") (.var n!"qqqq")) (.str n!"5")) (.var n!"p")))) (.bin .mul (.bin .div (.int 1) (.int 2)) (.idx (.var n!"F") (.bin .add (.bin .add (.bin .add (.str n!"F") (.var n!"qqqq")) (.str n!"9")) (.var n!"p")))))] st![.ite (.bin .isin (.var n!"qqqq") (.list es![(.str n!"sbss"), (.str n!"dbdd"), (.str n!"dsdd"), (.str n!"sbsd"), (.str n!"dbds"), (.str n!"bsbd"), (.str n!"ucuu")])) st![.assign n!"notp" (.cond (.bin .eq (.var n!"p") (.str n!"")) (.str n!"p") (.str n!"")),
            .setItem n!"F" (.bin .add (.bin .add (.bin .add (.str n!"F") (.var n!"qqqq")) (.str n!"2")) (.var n!"p")) (.idx (.var n!"F") (.bin .add (.bin .add (.bin .add (.str n!"F") (.var n!"qqqq")) (.str n!"1")) (.var n!"p"))),
            .setItem n!"F" (.bin .add (.bin .add (.bin .add (.str n!"F") (.var n!"qqqq")) (.str n!"4")) (.var n!"p")) (.bin .mul (.bin .div (.neg (.int 1)) (.int 2)) (.idx (.var n!"F") (.bin .add (.bin .add (.bin .add (.str n!"F") (.var n!"qqqq")) (.str n!"7")) (.var n!"notp")))),
            .setItem n!"F" (.bin .add (.bin .add (.bin .add (.str n!"F") (.var n!"qqqq")) (.str n!"6")) (.var n!"notp")) (.bin .sub (.bin .mul (.bin .div (.neg (.int 1)) (.int 2)) (.idx (.var n!"F") (.bin .add (.bin .add (.bin .add (.str n!"F") (.var n!"qqqq")) (.str n!"5")) (.var n!"notp")))) (.bin .mul (.int 6) (.idx (.var n!"F") (.bin .add (.bin .add (.bin .add (.str n!"F") (.var n!"qqqq")) (.str n!"9")) (.var n!"notp"))))),
            .setItem n!"F" (.bin .add (.bin .add (.bin .add (.str n!"F") (.var n!"qqqq")) (.str n!"8")) (.var n!"notp")) (.bin .mul (.neg (.int 2)) (.idx (.var n!"F") (.bin .add (.bin .add (.bin .add (.str n!"F") (.var n!"qqqq")) (.str n!"3")) (.var n!"p")))),
            .setItem n!"F" (.bin .add (.bin .add (.bin .add (.str n!"F") (.var n!"qqqq")) (.str n!"10")) (.var n!"notp")) (.bin .add (.bin .mul (.bin .div (.neg (.int 1)) (.int 8)) (.idx (.var n!"F") (.bin .add (.bin .add (.bin .add (.str n!"F") (.var n!"qqqq")) (.str n!"5")) (.var n!"notp")))) (.bin .mul (.bin .div (.int 1) (.int 2)) (.idx (.var n!"F") (.bin .add (.bin .add (.bin .add (.str n!"F") (.var n!"qqqq")) (.str n!"9")) (.var n!"notp")))))] st![]]]] st![],
    .ite (.bin .isin (.var n!"qqqq") (.bin .add (.bin .add (.var n!"classIV") (.var n!"classVdddd")) (.var n!"classVddddind"))) st![.assign n!"f1" (.call n!"str" es![(.bin .add (.idx (.var n!"dflav") (.idx (.var n!"qqqq") (.int 0))) (.int 1))]),
      .assign n!"f2" (.call n!"str" es![(.bin .add (.idx (.var n!"dflav") (.idx (.var n!"qqqq") (.int 1))) (.int 1))]),
      .assign n!"f3" (.call n!"str" es![(.bin .add (.idx (.var n!"dflav") (.idx (.var n!"qqqq") (.int 2))) (.int 1))]),
      .assign n!"f4" (.call n!"str" es![(.bin .add (.idx (.var n!"dflav") (.idx (.var n!"qqqq") (.int 3))) (.int 1))]),
      .assign n!"d" (.dict kv![
        (.bin .add (.bin .add (.bin .add (.bin .add (.str n!"VddLL_") (.var n!"f3")) (.var n!"f4")) (.var n!"f1")) (.var n!"f2")) : (.idx (.var n!"F") (.bin .add (.bin .add (.str n!"F") (.var n!"qqqq")) (.str n!"1"))),
        (.bin .add (.bin .add (.bin .add (.bin .add (.str n!"VddLL_") (.var n!"f1")) (.var n!"f4")) (.var n!"f3")) (.var n!"f2")) : (.idx (.var n!"F") (.bin .add (.bin .add (.str n!"F") (.var n!"qqqq")) (.str n!"2"))),
        (.bin .add (.bin .add (.bin .add (.bin .add (.str n!"V1ddLR_") (.var n!"f1")) (.var n!"f2")) (.var n!"f3")) (.var n!"f4")) : (.bin .add (.idx (.var n!"F") (.bin .add (.bin .add (.str n!"F") (.var n!"qqqq")) (.str n!"3"))) (.bin .div (.idx (.var n!"F") (.bin .add (.bin .add (.str n!"F") (.var n!"qqqq")) (.str n!"4"))) (.var n!"Nc"))),
        (.bin .add (.bin .add (.bin .add (.bin .add (.str n!"V8ddLR_") (.var n!"f1")) (.var n!"f2")) (.var n!"f3")) (.var n!"f4")) : (.bin .mul (.int 2) (.idx (.var n!"F") (.bin .add (.bin .add (.str n!"F") (.var n!"qqqq")) (.str n!"4")))),
        (.bin .add (.bin .add (.bin .add (.bin .add (.str n!"S1ddRR_") (.var n!"f3")) (.var n!"f4")) (.var n!"f1")) (.var n!"f2")) : (.bin .sub (.bin .sub (.bin .add (.idx (.var n!"F") (.bin .add (.bin .add (.str n!"F") (.var n!"qqqq")) (.str n!"5"))) (.bin .div (.idx (.var n!"F") (.bin .add (.bin .add (.str n!"F") (.var n!"qqqq")) (.str n!"6"))) (.var n!"Nc"))) (.bin .mul (.int 4) (.idx (.var n!"F") (.bin .add (.bin .add (.str n!"F") (.var n!"qqqq")) (.str n!"9"))))) (.bin .div (.bin .mul (.int 4) (.idx (.var n!"F") (.bin .add (.bin .add (.str n!"F") (.var n!"qqqq")) (.str n!"10")))) (.var n!"Nc"))),
        (.bin .add (.bin .add (.bin .add (.bin .add (.str n!"S8ddRR_") (.var n!"f3")) (.var n!"f4")) (.var n!"f1")) (.var n!"f2")) : (.bin .sub (.bin .mul (.int 2) (.idx (.var n!"F") (.bin .add (.bin .add (.str n!"F") (.var n!"qqqq")) (.str n!"6")))) (.bin .mul (.int 8) (.idx (.var n!"F") (.bin .add (.bin .add (.str n!"F") (.var n!"qqqq")) (.str n!"10"))))),
        (.bin .add (.bin .add (.bin .add (.bin .add (.str n!"V8ddLR_") (.var n!"f1")) (.var n!"f4")) (.var n!"f3")) (.var n!"f2")) : (.neg (.idx (.var n!"F") (.bin .add (.bin .add (.str n!"F") (.var n!"qqqq")) (.str n!"7")))),
        (.bin .add (.bin .add (.bin .add (.bin .add (.str n!"V1ddLR_") (.var n!"f1")) (.var n!"f4")) (.var n!"f3")) (.var n!"f2")) : (.bin .sub (.neg (.bin .div (.idx (.var n!"F") (.bin .add (.bin .add (.str n!"F") (.var n!"qqqq")) (.str n!"7"))) (.bin .mul (.int 2) (.var n!"Nc")))) (.bin .div (.idx (.var n!"F") (.bin .add (.bin .add (.str n!"F") (.var n!"qqqq")) (.str n!"8"))) (.int 2))),
        (.bin .add (.bin .add (.bin .add (.bin .add (.str n!"S1ddRR_") (.var n!"f1")) (.var n!"f4")) (.var n!"f3")) (.var n!"f2")) : (.bin .sub (.neg (.bin .div (.bin .mul (.int 8) (.idx (.var n!"F") (.bin .add (.bin .add (.str n!"F") (.var n!"qqqq")) (.str n!"9")))) (.var n!"Nc"))) (.bin .mul (.int 8) (.idx (.var n!"F") (.bin .add (.bin .add (.str n!"F") (.var n!"qqqq")) (.str n!"10"))))),
        (.bin .add (.bin .add (.bin .add (.bin .add (.str n!"S8ddRR_") (.var n!"f3")) (.var n!"f2")) (.var n!"f1")) (.var n!"f4")) : (.bin .mul (.neg (.int 16)) (.idx (.var n!"F") (.bin .add (.bin .add (.str n!"F") (.var n!"qqqq")) (.str n!"9")))),
        (.bin .add (.bin .add (.bin .add (.bin .add (.str n!"VddRR_") (.var n!"f3")) (.var n!"f4")) (.var n!"f1")) (.var n!"f2")) : (.idx (.var n!"F") (.bin .add (.bin .add (.str n!"F") (.var n!"qqqq")) (.str n!"1p"))),
        (.bin .add (.bin .add (.bin .add (.bin .add (.str n!"VddRR_") (.var n!"f1")) (.var n!"f4")) (.var n!"f3")) (.var n!"f2")) : (.idx (.var n!"F") (.bin .add (.bin .add (.str n!"F") (.var n!"qqqq")) (.str n!"2p"))),
        (.bin .add (.bin .add (.bin .add (.bin .add (.str n!"V1ddLR_") (.var n!"f3")) (.var n!"f4")) (.var n!"f1")) (.var n!"f2")) : (.bin .add (.idx (.var n!"F") (.bin .add (.bin .add (.str n!"F") (.var n!"qqqq")) (.str n!"3p"))) (.bin .div (.idx (.var n!"F") (.bin .add (.bin .add (.str n!"F") (.var n!"qqqq")) (.str n!"4p"))) (.var n!"Nc"))),
        (.bin .add (.bin .add (.bin .add (.bin .add (.str n!"V8ddLR_") (.var n!"f3")) (.var n!"f4")) (.var n!"f1")) (.var n!"f2")) : (.bin .mul (.int 2) (.idx (.var n!"F") (.bin .add (.bin .add (.str n!"F") (.var n!"qqqq")) (.str n!"4p")))),
        (.bin .add (.bin .add (.bin .add (.bin .add (.str n!"S1ddRR_") (.var n!"f4")) (.var n!"f3")) (.var n!"f2")) (.var n!"f1")) : (.bin .sub (.bin .sub (.bin .add (.meth (.idx (.var n!"F") (.bin .add (.bin .add (.str n!"F") (.var n!"qqqq")) (.str n!"5p"))) n!"conj" es![]) (.bin .div (.meth (.idx (.var n!"F") (.bin .add (.bin .add (.str n!"F") (.var n!"qqqq")) (.str n!"6p"))) n!"conj" es![]) (.var n!"Nc"))) (.bin .mul (.int 4) (.meth (.idx (.var n!"F") (.bin .add (.bin .add (.str n!"F") (.var n!"qqqq")) (.str n!"9p"))) n!"conj" es![]))) (.bin .div (.bin .mul (.int 4) (.meth (.idx (.var n!"F") (.bin .add (.bin .add (.str n!"F") (.var n!"qqqq")) (.str n!"10p"))) n!"conj" es![])) (.var n!"Nc"))),
        (.bin .add (.bin .add (.bin .add (.bin .add (.str n!"S8ddRR_") (.var n!"f4")) (.var n!"f3")) (.var n!"f2")) (.var n!"f1")) : (.bin .sub (.bin .mul (.int 2) (.meth (.idx (.var n!"F") (.bin .add (.bin .add (.str n!"F") (.var n!"qqqq")) (.str n!"6p"))) n!"conj" es![])) (.bin .mul (.int 8) (.meth (.idx (.var n!"F") (.bin .add (.bin .add (.str n!"F") (.var n!"qqqq")) (.str n!"10p"))) n!"conj" es![]))),
        (.bin .add (.bin .add (.bin .add (.bin .add (.str n!"V8ddLR_") (.var n!"f3")) (.var n!"f2")) (.var n!"f1")) (.var n!"f4")) : (.neg (.idx (.var n!"F") (.bin .add (.bin .add (.str n!"F") (.var n!"qqqq")) (.str n!"7p")))),
        (.bin .add (.bin .add (.bin .add (.bin .add (.str n!"V1ddLR_") (.var n!"f3")) (.var n!"f2")) (.var n!"f1")) (.var n!"f4")) : (.bin .sub (.neg (.bin .div (.idx (.var n!"F") (.bin .add (.bin .add (.str n!"F") (.var n!"qqqq")) (.str n!"7p"))) (.bin .mul (.int 2) (.var n!"Nc")))) (.bin .div (.idx (.var n!"F") (.bin .add (.bin .add (.str n!"F") (.var n!"qqqq")) (.str n!"8p"))) (.int 2))),
        (.bin .add (.bin .add (.bin .add (.bin .add (.str n!"S1ddRR_") (.var n!"f4")) (.var n!"f1")) (.var n!"f2")) (.var n!"f3")) : (.bin .sub (.neg (.bin .div (.bin .mul (.int 8) (.meth (.idx (.var n!"F") (.bin .add (.bin .add (.str n!"F") (.var n!"qqqq")) (.str n!"9p"))) n!"conj" es![])) (.var n!"Nc"))) (.bin .mul (.int 8) (.meth (.idx (.var n!"F") (.bin .add (.bin .add (.str n!"F") (.var n!"qqqq")) (.str n!"10p"))) n!"conj" es![]))),
        (.bin .add (.bin .add (.bin .add (.bin .add (.str n!"S8ddRR_") (.var n!"f4")) (.var n!"f1")) (.var n!"f2")) (.var n!"f3")) : (.bin .mul (.neg (.int 16)) (.meth (.idx (.var n!"F") (.bin .add (.bin .add (.str n!"F") (.var n!"qqqq")) (.str n!"9p"))) n!"conj" es![]))]),
      .ret (.call n!"symmetrize_JMS_dict" es![(.var n!"d")])] st![],
    .ite (.bin .isin (.var n!"qqqq") (.var n!"classVuuuu")) st![.assign n!"f1" (.call n!"str" es![(.bin .add (.idx (.var n!"uflav") (.idx (.var n!"qqqq") (.int 0))) (.int 1))]),
      .assign n!"f2" (.call n!"str" es![(.bin .add (.idx (.var n!"uflav") (.idx (.var n!"qqqq") (.int 1))) (.int 1))]),
      .assign n!"f3" (.call n!"str" es![(.bin .add (.idx (.var n!"uflav") (.idx (.var n!"qqqq") (.int 2))) (.int 1))]),
      .assign n!"f4" (.call n!"str" es![(.bin .add (.idx (.var n!"uflav") (.idx (.var n!"qqqq") (.int 3))) (.int 1))]),
      .assign n!"d" (.dict kv![
        (.bin .add (.bin .add (.bin .add (.bin .add (.str n!"VuuLL_") (.var n!"f3")) (.var n!"f4")) (.var n!"f1")) (.var n!"f2")) : (.idx (.var n!"F") (.bin .add (.bin .add (.str n!"F") (.var n!"qqqq")) (.str n!"1"))),
        (.bin .add (.bin .add (.bin .add (.bin .add (.str n!"VuuLL_") (.var n!"f1")) (.var n!"f4")) (.var n!"f3")) (.var n!"f2")) : (.idx (.var n!"F") (.bin .add (.bin .add (.str n!"F") (.var n!"qqqq")) (.str n!"2"))),
        (.bin .add (.bin .add (.bin .add (.bin .add (.str n!"V1uuLR_") (.var n!"f1")) (.var n!"f2")) (.var n!"f3")) (.var n!"f4")) : (.bin .add (.idx (.var n!"F") (.bin .add (.bin .add (.str n!"F") (.var n!"qqqq")) (.str n!"3"))) (.bin .div (.idx (.var n!"F") (.bin .add (.bin .add (.str n!"F") (.var n!"qqqq")) (.str n!"4"))) (.var n!"Nc"))),
        (.bin .add (.bin .add (.bin .add (.bin .add (.str n!"V8uuLR_") (.var n!"f1")) (.var n!"f2")) (.var n!"f3")) (.var n!"f4")) : (.bin .mul (.int 2) (.idx (.var n!"F") (.bin .add (.bin .add (.str n!"F") (.var n!"qqqq")) (.str n!"4")))),
        (.bin .add (.bin .add (.bin .add (.bin .add (.str n!"S1uuRR_") (.var n!"f3")) (.var n!"f4")) (.var n!"f1")) (.var n!"f2")) : (.bin .sub (.bin .sub (.bin .add (.idx (.var n!"F") (.bin .add (.bin .add (.str n!"F") (.var n!"qqqq")) (.str n!"5"))) (.bin .div (.idx (.var n!"F") (.bin .add (.bin .add (.str n!"F") (.var n!"qqqq")) (.str n!"6"))) (.var n!"Nc"))) (.bin .mul (.int 4) (.idx (.var n!"F") (.bin .add (.bin .add (.str n!"F") (.var n!"qqqq")) (.str n!"9"))))) (.bin .div (.bin .mul (.int 4) (.idx (.var n!"F") (.bin .add (.bin .add (.str n!"F") (.var n!"qqqq")) (.str n!"10")))) (.var n!"Nc"))),
        (.bin .add (.bin .add (.bin .add (.bin .add (.str n!"S8uuRR_") (.var n!"f3")) (.var n!"f4")) (.var n!"f1")) (.var n!"f2")) : (.bin .sub (.bin .mul (.int 2) (.idx (.var n!"F") (.bin .add (.bin .add (.str n!"F") (.var n!"qqqq")) (.str n!"6")))) (.bin .mul (.int 8) (.idx (.var n!"F") (.bin .add (.bin .add (.str n!"F") (.var n!"qqqq")) (.str n!"10"))))),
        (.bin .add (.bin .add (.bin .add (.bin .add (.str n!"V8uuLR_") (.var n!"f1")) (.var n!"f4")) (.var n!"f3")) (.var n!"f2")) : (.neg (.idx (.var n!"F") (.bin .add (.bin .add (.str n!"F") (.var n!"qqqq")) (.str n!"7")))),
        (.bin .add (.bin .add (.bin .add (.bin .add (.str n!"V1uuLR_") (.var n!"f1")) (.var n!"f4")) (.var n!"f3")) (.var n!"f2")) : (.bin .sub (.neg (.bin .div (.idx (.var n!"F") (.bin .add (.bin .add (.str n!"F") (.var n!"qqqq")) (.str n!"7"))) (.bin .mul (.int 2) (.var n!"Nc")))) (.bin .div (.idx (.var n!"F") (.bin .add (.bin .add (.str n!"F") (.var n!"qqqq")) (.str n!"8"))) (.int 2))),
        (.bin .add (.bin .add (.bin .add (.bin .add (.str n!"S1uuRR_") (.var n!"f1")) (.var n!"f4")) (.var n!"f3")) (.var n!"f2")) : (.bin .sub (.neg (.bin .div (.bin .mul (.int 8) (.idx (.var n!"F") (.bin .add (.bin .add (.str n!"F") (.var n!"qqqq")) (.str n!"9")))) (.var n!"Nc"))) (.bin .mul (.int 8) (.idx (.var n!"F") (.bin .add (.bin .add (.str n!"F") (.var n!"qqqq")) (.str n!"10"))))),
        (.bin .add (.bin .add (.bin .add (.bin .add (.str n!"S8uuRR_") (.var n!"f3")) (.var n!"f2")) (.var n!"f1")) (.var n!"f4")) : (.bin .mul (.neg (.int 16)) (.idx (.var n!"F") (.bin .add (.bin .add (.str n!"F") (.var n!"qqqq")) (.str n!"9")))),
        (.bin .add (.bin .add (.bin .add (.bin .add (.str n!"VuuRR_") (.var n!"f3")) (.var n!"f4")) (.var n!"f1")) (.var n!"f2")) : (.idx (.var n!"F") (.bin .add (.bin .add (.str n!"F") (.var n!"qqqq")) (.str n!"1p"))),
        (.bin .add (.bin .add (.bin .add (.bin .add (.str n!"VuuRR_") (.var n!"f1")) (.var n!"f4")) (.var n!"f3")) (.var n!"f2")) : (.idx (.var n!"F") (.bin .add (.bin .add (.str n!"F") (.var n!"qqqq")) (.str n!"2p"))),
        (.bin .add (.bin .add (.bin .add (.bin .add (.str n!"V1uuLR_") (.var n!"f3")) (.var n!"f4")) (.var n!"f1")) (.var n!"f2")) : (.bin .add (.idx (.var n!"F") (.bin .add (.bin .add (.str n!"F") (.var n!"qqqq")) (.str n!"3p"))) (.bin .div (.idx (.var n!"F") (.bin .add (.bin .add (.str n!"F") (.var n!"qqqq")) (.str n!"4p"))) (.var n!"Nc"))),
        (.bin .add (.bin .add (.bin .add (.bin .add (.str n!"V8uuLR_") (.var n!"f3")) (.var n!"f4")) (.var n!"f1")) (.var n!"f2")) : (.bin .mul (.int 2) (.idx (.var n!"F") (.bin .add (.bin .add (.str n!"F") (.var n!"qqqq")) (.str n!"4p")))),
        (.bin .add (.bin .add (.bin .add (.bin .add (.str n!"S1uuRR_") (.var n!"f4")) (.var n!"f3")) (.var n!"f2")) (.var n!"f1")) : (.bin .sub (.bin .sub (.bin .add (.meth (.idx (.var n!"F") (.bin .add (.bin .add (.str n!"F") (.var n!"qqqq")) (.str n!"5p"))) n!"conj" es![]) (.bin .div (.meth (.idx (.var n!"F") (.bin .add (.bin .add (.str n!"F") (.var n!"qqqq")) (.str n!"6p"))) n!"conj" es![]) (.var n!"Nc"))) (.bin .mul (.int 4) (.meth (.idx (.var n!"F") (.bin .add (.bin .add (.str n!"F") (.var n!"qqqq")) (.str n!"9p"))) n!"conj" es![]))) (.bin .div (.bin .mul (.int 4) (.meth (.idx (.var n!"F") (.bin .add (.bin .add (.str n!"F") (.var n!"qqqq")) (.str n!"10p"))) n!"conj" es![])) (.var n!"Nc"))),
        (.bin .add (.bin .add (.bin .add (.bin .add (.str n!"S8uuRR_") (.var n!"f4")) (.var n!"f3")) (.var n!"f2")) (.var n!"f1")) : (.bin .sub (.bin .mul (.int 2) (.meth (.idx (.var n!"F") (.bin .add (.bin .add (.str n!"F") (.var n!"qqqq")) (.str n!"6p"))) n!"conj" es![])) (.bin .mul (.int 8) (.meth (.idx (.var n!"F") (.bin .add (.bin .add (.str n!"F") (.var n!"qqqq")) (.str n!"10p"))) n!"conj" es![]))),
        (.bin .add (.bin .add (.bin .add (.bin .add (.str n!"V8uuLR_") (.var n!"f3")) (.var n!"f2")) (.var n!"f1")) (.var n!"f4")) : (.neg (.idx (.var n!"F") (.bin .add (.bin .add (.str n!"F") (.var n!"qqqq")) (.str n!"7p")))),
        (.bin .add (.bin .add (.bin .add (.bin .add (.str n!"V1uuLR_") (.var n!"f3")) (.var n!"f2")) (.var n!"f1")) (.var n!"f4")) : (.bin .sub (.neg (.bin .div (.idx (.var n!"F") (.bin .add (.bin .add (.str n!"F") (.var n!"qqqq")) (.str n!"7p"))) (.bin .mul (.int 2) (.var n!"Nc")))) (.bin .div (.idx (.var n!"F") (.bin .add (.bin .add (.str n!"F") (.var n!"qqqq")) (.str n!"8p"))) (.int 2))),
        (.bin .add (.bin .add (.bin .add (.bin .add (.str n!"S1uuRR_") (.var n!"f4")) (.var n!"f1")) (.var n!"f2")) (.var n!"f3")) : (.bin .sub (.neg (.bin .div (.bin .mul (.int 8) (.meth (.idx (.var n!"F") (.bin .add (.bin .add (.str n!"F") (.var n!"qqqq")) (.str n!"9p"))) n!"conj" es![])) (.var n!"Nc"))) (.bin .mul (.int 8) (.meth (.idx (.var n!"F") (.bin .add (.bin .add (.str n!"F") (.var n!"qqqq")) (.str n!"10p"))) n!"conj" es![]))),
        (.bin .add (.bin .add (.bin .add (.bin .add (.str n!"S8uuRR_") (.var n!"f4")) (.var n!"f1")) (.var n!"f2")) (.var n!"f3")) : (.bin .mul (.neg (.int 16)) (.meth (.idx (.var n!"F") (.bin .add (.bin .add (.str n!"F") (.var n!"qqqq")) (.str n!"9p"))) n!"conj" es![]))]),
      .ret (.call n!"symmetrize_JMS_dict" es![(.var n!"d")])] st![],
    .raise]⟩

/-- wet.py:442-624 `_JMS_to_Fierz_III_IV_V` -/
def fn_JMS_to_Fierz_III_IV_V : Fn := ⟨n!"_JMS_to_Fierz_III_IV_V", [n!"C", n!"qqqq"],
  st![.assign n!"classIII" (.list es![(.str n!"sbuc"), (.str n!"sbcu"), (.str n!"dbuc"), (.str n!"dbcu"), (.str n!"dsuc"), (.str n!"dscu")]),
    .assign n!"classVdduu" (.list es![(.str n!"sbuu"), (.str n!"dbuu"), (.str n!"dsuu"), (.str n!"sbcc"), (.str n!"dbcc"), (.str n!"dscc")]),
    .ite (.bin .isin (.var n!"qqqq") (.bin .add (.var n!"classIII") (.var n!"classVdduu"))) st![.assign n!"f1" (.idx (.var n!"dflav") (.idx (.var n!"qqqq") (.int 0))),
      .assign n!"f2" (.idx (.var n!"dflav") (.idx (.var n!"qqqq") (.int 1))),
      .assign n!"f3" (.idx (.var n!"uflav") (.idx (.var n!"qqqq") (.int 2))),
      .assign n!"f4" (.idx (.var n!"uflav") (.idx (.var n!"qqqq") (.int 3))),
      .ret (.dict kv![
        (.bin .add (.bin .add (.str n!"F") (.var n!"qqqq")) (.str n!"1")) : (.bin .sub (.idx (.idx (.var n!"C") (.str n!"V1udLL")) (.list es![(.var n!"f3"), (.var n!"f4"), (.var n!"f1"), (.var n!"f2")])) (.bin .div (.idx (.idx (.var n!"C") (.str n!"V8udLL")) (.list es![(.var n!"f3"), (.var n!"f4"), (.var n!"f1"), (.var n!"f2")])) (.bin .mul (.int 2) (.var n!"Nc")))),
        (.bin .add (.bin .add (.str n!"F") (.var n!"qqqq")) (.str n!"2")) : (.bin .div (.idx (.idx (.var n!"C") (.str n!"V8udLL")) (.list es![(.var n!"f3"), (.var n!"f4"), (.var n!"f1"), (.var n!"f2")])) (.int 2)),
        (.bin .add (.bin .add (.str n!"F") (.var n!"qqqq")) (.str n!"3")) : (.bin .sub (.idx (.idx (.var n!"C") (.str n!"V1duLR")) (.list es![(.var n!"f1"), (.var n!"f2"), (.var n!"f3"), (.var n!"f4")])) (.bin .div (.idx (.idx (.var n!"C") (.str n!"V8duLR")) (.list es![(.var n!"f1"), (.var n!"f2"), (.var n!"f3"), (.var n!"f4")])) (.bin .mul (.int 2) (.var n!"Nc")))),
        (.bin .add (.bin .add (.str n!"F") (.var n!"qqqq")) (.str n!"4")) : (.bin .div (.idx (.idx (.var n!"C") (.str n!"V8duLR")) (.list es![(.var n!"f1"), (.var n!"f2"), (.var n!"f3"), (.var n!"f4")])) (.int 2)),
        (.bin .add (.bin .add (.str n!"F") (.var n!"qqqq")) (.str n!"5")) : (.bin .sub (.bin .sub (.idx (.idx (.var n!"C") (.str n!"S1udRR")) (.list es![(.var n!"f3"), (.var n!"f4"), (.var n!"f1"), (.var n!"f2")])) (.bin .div (.idx (.idx (.var n!"C") (.str n!"S8udduRR")) (.list es![(.var n!"f3"), (.var n!"f2"), (.var n!"f1"), (.var n!"f4")])) (.int 4))) (.bin .div (.idx (.idx (.var n!"C") (.str n!"S8udRR")) (.list es![(.var n!"f3"), (.var n!"f4"), (.var n!"f1"), (.var n!"f2")])) (.bin .mul (.int 2) (.var n!"Nc")))),
        (.bin .add (.bin .add (.str n!"F") (.var n!"qqqq")) (.str n!"6")) : (.bin .add (.bin .add (.bin .div (.neg (.idx (.idx (.var n!"C") (.str n!"S1udduRR")) (.list es![(.var n!"f3"), (.var n!"f2"), (.var n!"f1"), (.var n!"f4")]))) (.int 2)) (.bin .div (.idx (.idx (.var n!"C") (.str n!"S8udduRR")) (.list es![(.var n!"f3"), (.var n!"f2"), (.var n!"f1"), (.var n!"f4")])) (.bin .mul (.int 4) (.var n!"Nc")))) (.bin .div (.idx (.idx (.var n!"C") (.str n!"S8udRR")) (.list es![(.var n!"f3"), (.var n!"f4"), (.var n!"f1"), (.var n!"f2")])) (.int 2))),
        (.bin .add (.bin .add (.str n!"F") (.var n!"qqqq")) (.str n!"7")) : (.neg (.meth (.idx (.idx (.var n!"C") (.str n!"V8udduLR")) (.list es![(.var n!"f4"), (.var n!"f1"), (.var n!"f2"), (.var n!"f3")])) n!"conj" es![])),
        (.bin .add (.bin .add (.str n!"F") (.var n!"qqqq")) (.str n!"8")) : (.bin .add (.bin .mul (.neg (.int 2)) (.meth (.idx (.idx (.var n!"C") (.str n!"V1udduLR")) (.list es![(.var n!"f4"), (.var n!"f1"), (.var n!"f2"), (.var n!"f3")])) n!"conj" es![])) (.bin .div (.meth (.idx (.idx (.var n!"C") (.str n!"V8udduLR")) (.list es![(.var n!"f4"), (.var n!"f1"), (.var n!"f2"), (.var n!"f3")])) n!"conj" es![]) (.var n!"Nc"))),
        (.bin .add (.bin .add (.str n!"F") (.var n!"qqqq")) (.str n!"9")) : (.bin .div (.neg (.idx (.idx (.var n!"C") (.str n!"S8udduRR")) (.list es![(.var n!"f3"), (.var n!"f2"), (.var n!"f1"), (.var n!"f4")]))) (.int 16)),
        (.bin .add (.bin .add (.str n!"F") (.var n!"qqqq")) (.str n!"10")) : (.bin .add (.bin .div (.neg (.idx (.idx (.var n!"C") (.str n!"S1udduRR")) (.list es![(.var n!"f3"), (.var n!"f2"), (.var n!"f1"), (.var n!"f4")]))) (.int 8)) (.bin .div (.idx (.idx (.var n!"C") (.str n!"S8udduRR")) (.list es![(.var n!"f3"), (.var n!"f2"), (.var n!"f1"), (.var n!"f4")])) (.bin .mul (.int 16) (.var n!"Nc")))),
        (.bin .add (.bin .add (.str n!"F") (.var n!"qqqq")) (.str n!"1p")) : (.bin .sub (.idx (.idx (.var n!"C") (.str n!"V1udRR")) (.list es![(.var n!"f3"), (.var n!"f4"), (.var n!"f1"), (.var n!"f2")])) (.bin .div (.idx (.idx (.var n!"C") (.str n!"V8udRR")) (.list es![(.var n!"f3"), (.var n!"f4"), (.var n!"f1"), (.var n!"f2")])) (.bin .mul (.int 2) (.var n!"Nc")))),
        (.bin .add (.bin .add (.str n!"F") (.var n!"qqqq")) (.str n!"2p")) : (.bin .div (.idx (.idx (.var n!"C") (.str n!"V8udRR")) (.list es![(.var n!"f3"), (.var n!"f4"), (.var n!"f1"), (.var n!"f2")])) (.int 2)),
        (.bin .add (.bin .add (.str n!"F") (.var n!"qqqq")) (.str n!"3p")) : (.bin .sub (.idx (.idx (.var n!"C") (.str n!"V1udLR")) (.list es![(.var n!"f3"), (.var n!"f4"), (.var n!"f1"), (.var n!"f2")])) (.bin .div (.idx (.idx (.var n!"C") (.str n!"V8udLR")) (.list es![(.var n!"f3"), (.var n!"f4"), (.var n!"f1"), (.var n!"f2")])) (.bin .mul (.int 2) (.var n!"Nc")))),
        (.bin .add (.bin .add (.str n!"F") (.var n!"qqqq")) (.str n!"4p")) : (.bin .div (.idx (.idx (.var n!"C") (.str n!"V8udLR")) (.list es![(.var n!"f3"), (.var n!"f4"), (.var n!"f1"), (.var n!"f2")])) (.int 2)),
        (.bin .add (.bin .add (.str n!"F") (.var n!"qqqq")) (.str n!"5p")) : (.bin .sub (.bin .sub (.meth (.idx (.idx (.var n!"C") (.str n!"S1udRR")) (.list es![(.var n!"f4"), (.var n!"f3"), (.var n!"f2"), (.var n!"f1")])) n!"conj" es![]) (.bin .div (.meth (.idx (.idx (.var n!"C") (.str n!"S8udduRR")) (.list es![(.var n!"f4"), (.var n!"f1"), (.var n!"f2"), (.var n!"f3")])) n!"conj" es![]) (.int 4))) (.bin .div (.meth (.idx (.idx (.var n!"C") (.str n!"S8udRR")) (.list es![(.var n!"f4"), (.var n!"f3"), (.var n!"f2"), (.var n!"f1")])) n!"conj" es![]) (.bin .mul (.int 2) (.var n!"Nc")))),
        (.bin .add (.bin .add (.str n!"F") (.var n!"qqqq")) (.str n!"6p")) : (.bin .add (.bin .add (.bin .div (.neg (.meth (.idx (.idx (.var n!"C") (.str n!"S1udduRR")) (.list es![(.var n!"f4"), (.var n!"f1"), (.var n!"f2"), (.var n!"f3")])) n!"conj" es![])) (.int 2)) (.bin .div (.meth (.idx (.idx (.var n!"C") (.str n!"S8udduRR")) (.list es![(.var n!"f4"), (.var n!"f1"), (.var n!"f2"), (.var n!"f3")])) n!"conj" es![]) (.bin .mul (.int 4) (.var n!"Nc")))) (.bin .div (.meth (.idx (.idx (.var n!"C") (.str n!"S8udRR")) (.list es![(.var n!"f4"), (.var n!"f3"), (.var n!"f2"), (.var n!"f1")])) n!"conj" es![]) (.int 2))),
        (.bin .add (.bin .add (.str n!"F") (.var n!"qqqq")) (.str n!"7p")) : (.neg (.idx (.idx (.var n!"C") (.str n!"V8udduLR")) (.list es![(.var n!"f3"), (.var n!"f2"), (.var n!"f1"), (.var n!"f4")]))),
        (.bin .add (.bin .add (.str n!"F") (.var n!"qqqq")) (.str n!"8p")) : (.bin .add (.bin .mul (.neg (.int 2)) (.idx (.idx (.var n!"C") (.str n!"V1udduLR")) (.list es![(.var n!"f3"), (.var n!"f2"), (.var n!"f1"), (.var n!"f4")]))) (.bin .div (.idx (.idx (.var n!"C") (.str n!"V8udduLR")) (.list es![(.var n!"f3"), (.var n!"f2"), (.var n!"f1"), (.var n!"f4")])) (.var n!"Nc"))),
        (.bin .add (.bin .add (.str n!"F") (.var n!"qqqq")) (.str n!"9p")) : (.bin .div (.neg (.meth (.idx (.idx (.var n!"C") (.str n!"S8udduRR")) (.list es![(.var n!"f4"), (.var n!"f1"), (.var n!"f2"), (.var n!"f3")])) n!"conj" es![])) (.int 16)),
        (.bin .add (.bin .add (.str n!"F") (.var n!"qqqq")) (.str n!"10p")) : (.bin .add (.bin .div (.neg (.meth (.idx (.idx (.var n!"C") (.str n!"S1udduRR")) (.list es![(.var n!"f4"), (.var n!"f1"), (.var n!"f2"), (.var n!"f3")])) n!"conj" es![])) (.int 8)) (.bin .div (.bin .div (.meth (.idx (.idx (.var n!"C") (.str n!"S8udduRR")) (.list es![(.var n!"f4"), (.var n!"f1"), (.var n!"f2"), (.var n!"f3")])) n!"conj" es![]) (.int 16)) (.var n!"Nc")))])] st![],
    .assign n!"classVuudd" (.list es![(.str n!"ucdd"), (.str n!"ucss"), (.str n!"ucbb")]),
    .ite (.bin .isin (.var n!"qqqq") (.var n!"classVuudd")) st![.assign n!"f3" (.idx (.var n!"uflav") (.idx (.var n!"qqqq") (.int 0))),
      .assign n!"f4" (.idx (.var n!"uflav") (.idx (.var n!"qqqq") (.int 1))),
      .assign n!"f1" (.idx (.var n!"dflav") (.idx (.var n!"qqqq") (.int 2))),
      .assign n!"f2" (.idx (.var n!"dflav") (.idx (.var n!"qqqq") (.int 3))),
      .ret (.dict kv![
        (.bin .add (.bin .add (.str n!"F") (.var n!"qqqq")) (.str n!"1")) : (.bin .sub (.idx (.idx (.var n!"C") (.str n!"V1udLL")) (.list es![(.var n!"f3"), (.var n!"f4"), (.var n!"f1"), (.var n!"f2")])) (.bin .div (.idx (.idx (.var n!"C") (.str n!"V8udLL")) (.list es![(.var n!"f3"), (.var n!"f4"), (.var n!"f1"), (.var n!"f2")])) (.bin .mul (.int 2) (.var n!"Nc")))),
        (.bin .add (.bin .add (.str n!"F") (.var n!"qqqq")) (.str n!"2")) : (.bin .div (.idx (.idx (.var n!"C") (.str n!"V8udLL")) (.list es![(.var n!"f3"), (.var n!"f4"), (.var n!"f1"), (.var n!"f2")])) (.int 2)),
        (.bin .add (.bin .add (.str n!"F") (.var n!"qqqq")) (.str n!"3p")) : (.bin .sub (.idx (.idx (.var n!"C") (.str n!"V1duLR")) (.list es![(.var n!"f1"), (.var n!"f2"), (.var n!"f3"), (.var n!"f4")])) (.bin .div (.idx (.idx (.var n!"C") (.str n!"V8duLR")) (.list es![(.var n!"f1"), (.var n!"f2"), (.var n!"f3"), (.var n!"f4")])) (.bin .mul (.int 2) (.var n!"Nc")))),
        (.bin .add (.bin .add (.str n!"F") (.var n!"qqqq")) (.str n!"4p")) : (.bin .div (.idx (.idx (.var n!"C") (.str n!"V8duLR")) (.list es![(.var n!"f1"), (.var n!"f2"), (.var n!"f3"), (.var n!"f4")])) (.int 2)),
        (.bin .add (.bin .add (.str n!"F") (.var n!"qqqq")) (.str n!"5")) : (.bin .sub (.bin .sub (.idx (.idx (.var n!"C") (.str n!"S1udRR")) (.list es![(.var n!"f3"), (.var n!"f4"), (.var n!"f1"), (.var n!"f2")])) (.bin .div (.idx (.idx (.var n!"C") (.str n!"S8udduRR")) (.list es![(.var n!"f3"), (.var n!"f2"), (.var n!"f1"), (.var n!"f4")])) (.int 4))) (.bin .div (.idx (.idx (.var n!"C") (.str n!"S8udRR")) (.list es![(.var n!"f3"), (.var n!"f4"), (.var n!"f1"), (.var n!"f2")])) (.bin .mul (.int 2) (.var n!"Nc")))),
        (.bin .add (.bin .add (.str n!"F") (.var n!"qqqq")) (.str n!"6")) : (.bin .add (.bin .add (.bin .div (.neg (.idx (.idx (.var n!"C") (.str n!"S1udduRR")) (.list es![(.var n!"f3"), (.var n!"f2"), (.var n!"f1"), (.var n!"f4")]))) (.int 2)) (.bin .div (.idx (.idx (.var n!"C") (.str n!"S8udduRR")) (.list es![(.var n!"f3"), (.var n!"f2"), (.var n!"f1"), (.var n!"f4")])) (.bin .mul (.int 4) (.var n!"Nc")))) (.bin .div (.idx (.idx (.var n!"C") (.str n!"S8udRR")) (.list es![(.var n!"f3"), (.var n!"f4"), (.var n!"f1"), (.var n!"f2")])) (.int 2))),
        (.bin .add (.bin .add (.str n!"F") (.var n!"qqqq")) (.str n!"7p")) : (.neg (.meth (.idx (.idx (.var n!"C") (.str n!"V8udduLR")) (.list es![(.var n!"f4"), (.var n!"f1"), (.var n!"f2"), (.var n!"f3")])) n!"conj" es![])),
        (.bin .add (.bin .add (.str n!"F") (.var n!"qqqq")) (.str n!"8p")) : (.bin .add (.bin .mul (.neg (.int 2)) (.meth (.idx (.idx (.var n!"C") (.str n!"V1udduLR")) (.list es![(.var n!"f4"), (.var n!"f1"), (.var n!"f2"), (.var n!"f3")])) n!"conj" es![])) (.bin .div (.meth (.idx (.idx (.var n!"C") (.str n!"V8udduLR")) (.list es![(.var n!"f4"), (.var n!"f1"), (.var n!"f2"), (.var n!"f3")])) n!"conj" es![]) (.var n!"Nc"))),
        (.bin .add (.bin .add (.str n!"F") (.var n!"qqqq")) (.str n!"9")) : (.bin .div (.neg (.idx (.idx (.var n!"C") (.str n!"S8udduRR")) (.list es![(.var n!"f3"), (.var n!"f2"), (.var n!"f1"), (.var n!"f4")]))) (.int 16)),
        (.bin .add (.bin .add (.str n!"F") (.var n!"qqqq")) (.str n!"10")) : (.bin .add (.bin .div (.neg (.idx (.idx (.var n!"C") (.str n!"S1udduRR")) (.list es![(.var n!"f3"), (.var n!"f2"), (.var n!"f1"), (.var n!"f4")]))) (.int 8)) (.bin .div (.idx (.idx (.var n!"C") (.str n!"S8udduRR")) (.list es![(.var n!"f3"), (.var n!"f2"), (.var n!"f1"), (.var n!"f4")])) (.bin .mul (.int 16) (.var n!"Nc")))),
        (.bin .add (.bin .add (.str n!"F") (.var n!"qqqq")) (.str n!"1p")) : (.bin .sub (.idx (.idx (.var n!"C") (.str n!"V1udRR")) (.list es![(.var n!"f3"), (.var n!"f4"), (.var n!"f1"), (.var n!"f2")])) (.bin .div (.idx (.idx (.var n!"C") (.str n!"V8udRR")) (.list es![(.var n!"f3"), (.var n!"f4"), (.var n!"f1"), (.var n!"f2")])) (.bin .mul (.int 2) (.var n!"Nc")))),
        (.bin .add (.bin .add (.str n!"F") (.var n!"qqqq")) (.str n!"2p")) : (.bin .div (.idx (.idx (.var n!"C") (.str n!"V8udRR")) (.list es![(.var n!"f3"), (.var n!"f4"), (.var n!"f1"), (.var n!"f2")])) (.int 2)),
        (.bin .add (.bin .add (.str n!"F") (.var n!"qqqq")) (.str n!"3")) : (.bin .sub (.idx (.idx (.var n!"C") (.str n!"V1udLR")) (.list es![(.var n!"f3"), (.var n!"f4"), (.var n!"f1"), (.var n!"f2")])) (.bin .div (.idx (.idx (.var n!"C") (.str n!"V8udLR")) (.list es![(.var n!"f3"), (.var n!"f4"), (.var n!"f1"), (.var n!"f2")])) (.bin .mul (.int 2) (.var n!"Nc")))),
        (.bin .add (.bin .add (.str n!"F") (.var n!"qqqq")) (.str n!"4")) : (.bin .div (.idx (.idx (.var n!"C") (.str n!"V8udLR")) (.list es![(.var n!"f3"), (.var n!"f4"), (.var n!"f1"), (.var n!"f2")])) (.int 2)),
        (.bin .add (.bin .add (.str n!"F") (.var n!"qqqq")) (.str n!"5p")) : (.bin .sub (.bin .sub (.meth (.idx (.idx (.var n!"C") (.str n!"S1udRR")) (.list es![(.var n!"f4"), (.var n!"f3"), (.var n!"f2"), (.var n!"f1")])) n!"conj" es![]) (.bin .div (.meth (.idx (.idx (.var n!"C") (.str n!"S8udduRR")) (.list es![(.var n!"f4"), (.var n!"f1"), (.var n!"f2"), (.var n!"f3")])) n!"conj" es![]) (.int 4))) (.bin .div (.meth (.idx (.idx (.var n!"C") (.str n!"S8udRR")) (.list es![(.var n!"f4"), (.var n!"f3"), (.var n!"f2"), (.var n!"f1")])) n!"conj" es![]) (.bin .mul (.int 2) (.var n!"Nc")))),
        (.bin .add (.bin .add (.str n!"F") (.var n!"qqqq")) (.str n!"6p")) : (.bin .add (.bin .add (.bin .div (.neg (.meth (.idx (.idx (.var n!"C") (.str n!"S1udduRR")) (.list es![(.var n!"f4"), (.var n!"f1"), (.var n!"f2"), (.var n!"f3")])) n!"conj" es![])) (.int 2)) (.bin .div (.meth (.idx (.idx (.var n!"C") (.str n!"S8udduRR")) (.list es![(.var n!"f4"), (.var n!"f1"), (.var n!"f2"), (.var n!"f3")])) n!"conj" es![]) (.bin .mul (.int 4) (.var n!"Nc")))) (.bin .div (.meth (.idx (.idx (.var n!"C") (.str n!"S8udRR")) (.list es![(.var n!"f4"), (.var n!"f3"), (.var n!"f2"), (.var n!"f1")])) n!"conj" es![]) (.int 2))),
        (.bin .add (.bin .add (.str n!"F") (.var n!"qqqq")) (.str n!"7")) : (.neg (.idx (.idx (.var n!"C") (.str n!"V8udduLR")) (.list es![(.var n!"f3"), (.var n!"f2"), (.var n!"f1"), (.var n!"f4")]))),
        (.bin .add (.bin .add (.str n!"F") (.var n!"qqqq")) (.str n!"8")) : (.bin .add (.bin .mul (.neg (.int 2)) (.idx (.idx (.var n!"C") (.str n!"V1udduLR")) (.list es![(.var n!"f3"), (.var n!"f2"), (.var n!"f1"), (.var n!"f4")]))) (.bin .div (.idx (.idx (.var n!"C") (.str n!"V8udduLR")) (.list es![(.var n!"f3"), (.var n!"f2"), (.var n!"f1"), (.var n!"f4")])) (.var n!"Nc"))),
        (.bin .add (.bin .add (.str n!"F") (.var n!"qqqq")) (.str n!"9p")) : (.bin .div (.neg (.meth (.idx (.idx (.var n!"C") (.str n!"S8udduRR")) (.list es![(.var n!"f4"), (.var n!"f1"), (.var n!"f2"), (.var n!"f3")])) n!"conj" es![])) (.int 16)),
        (.bin .add (.bin .add (.str n!"F") (.var n!"qqqq")) (.str n!"10p")) : (.bin .add (.bin .div (.neg (.meth (.idx (.idx (.var n!"C") (.str n!"S1udduRR")) (.list es![(.var n!"f4"), (.var n!"f1"), (.var n!"f2"), (.var n!"f3")])) n!"conj" es![])) (.int 8)) (.bin .div (.bin .div (.meth (.idx (.idx (.var n!"C") (.str n!"S8udduRR")) (.list es![(.var n!"f4"), (.var n!"f1"), (.var n!"f2"), (.var n!"f3")])) n!"conj" es![]) (.int 16)) (.var n!"Nc")))])] st![],
    .assign n!"classIV" (.list es![(.str n!"sbsd"), (.str n!"dbds"), (.str n!"bsbd")]),
    .assign n!"classVdddd" (.list es![(.str n!"sbss"), (.str n!"dbdd"), (.str n!"dsdd"), (.str n!"sbbb"), (.str n!"dbbb"), (.str n!"dsss")]),
    .assign n!"classVddddind" (.list es![(.str n!"sbdd"), (.str n!"dsbb"), (.str n!"dbss")]),
    .ite (.bin .isin (.var n!"qqqq") (.bin .add (.bin .add (.var n!"classIV") (.var n!"classVdddd")) (.var n!"classVddddind"))) st![.assign n!"f1" (.idx (.var n!"dflav") (.idx (.var n!"qqqq") (.int 0))),
      .assign n!"f2" (.idx (.var n!"dflav") (.idx (.var n!"qqqq") (.int 1))),
      .assign n!"f3" (.idx (.var n!"dflav") (.idx (.var n!"qqqq") (.int 2))),
      .assign n!"f4" (.idx (.var n!"dflav") (.idx (.var n!"qqqq") (.int 3))),
      .ret (.dict kv![
        (.bin .add (.bin .add (.str n!"F") (.var n!"qqqq")) (.str n!"1")) : (.idx (.idx (.var n!"C") (.str n!"VddLL")) (.list es![(.var n!"f3"), (.var n!"f4"), (.var n!"f1"), (.var n!"f2")])),
        (.bin .add (.bin .add (.str n!"F") (.var n!"qqqq")) (.str n!"2")) : (.idx (.idx (.var n!"C") (.str n!"VddLL")) (.list es![(.var n!"f1"), (.var n!"f4"), (.var n!"f3"), (.var n!"f2")])),
        (.bin .add (.bin .add (.str n!"F") (.var n!"qqqq")) (.str n!"3")) : (.bin .sub (.idx (.idx (.var n!"C") (.str n!"V1ddLR")) (.list es![(.var n!"f1"), (.var n!"f2"), (.var n!"f3"), (.var n!"f4")])) (.bin .div (.idx (.idx (.var n!"C") (.str n!"V8ddLR")) (.list es![(.var n!"f1"), (.var n!"f2"), (.var n!"f3"), (.var n!"f4")])) (.bin .mul (.int 2) (.var n!"Nc")))),
        (.bin .add (.bin .add (.str n!"F") (.var n!"qqqq")) (.str n!"4")) : (.bin .div (.idx (.idx (.var n!"C") (.str n!"V8ddLR")) (.list es![(.var n!"f1"), (.var n!"f2"), (.var n!"f3"), (.var n!"f4")])) (.int 2)),
        (.bin .add (.bin .add (.str n!"F") (.var n!"qqqq")) (.str n!"5")) : (.bin .sub (.bin .sub (.idx (.idx (.var n!"C") (.str n!"S1ddRR")) (.list es![(.var n!"f3"), (.var n!"f4"), (.var n!"f1"), (.var n!"f2")])) (.bin .div (.idx (.idx (.var n!"C") (.str n!"S8ddRR")) (.list es![(.var n!"f3"), (.var n!"f2"), (.var n!"f1"), (.var n!"f4")])) (.int 4))) (.bin .div (.idx (.idx (.var n!"C") (.str n!"S8ddRR")) (.list es![(.var n!"f3"), (.var n!"f4"), (.var n!"f1"), (.var n!"f2")])) (.bin .mul (.int 2) (.var n!"Nc")))),
        (.bin .add (.bin .add (.str n!"F") (.var n!"qqqq")) (.str n!"6")) : (.bin .add (.bin .add (.bin .div (.neg (.idx (.idx (.var n!"C") (.str n!"S1ddRR")) (.list es![(.var n!"f1"), (.var n!"f4"), (.var n!"f3"), (.var n!"f2")]))) (.int 2)) (.bin .div (.idx (.idx (.var n!"C") (.str n!"S8ddRR")) (.list es![(.var n!"f3"), (.var n!"f2"), (.var n!"f1"), (.var n!"f4")])) (.bin .mul (.int 4) (.var n!"Nc")))) (.bin .div (.idx (.idx (.var n!"C") (.str n!"S8ddRR")) (.list es![(.var n!"f3"), (.var n!"f4"), (.var n!"f1"), (.var n!"f2")])) (.int 2))),
        (.bin .add (.bin .add (.str n!"F") (.var n!"qqqq")) (.str n!"7")) : (.neg (.idx (.idx (.var n!"C") (.str n!"V8ddLR")) (.list es![(.var n!"f1"), (.var n!"f4"), (.var n!"f3"), (.var n!"f2")]))),
        (.bin .add (.bin .add (.str n!"F") (.var n!"qqqq")) (.str n!"8")) : (.bin .add (.bin .mul (.neg (.int 2)) (.idx (.idx (.var n!"C") (.str n!"V1ddLR")) (.list es![(.var n!"f1"), (.var n!"f4"), (.var n!"f3"), (.var n!"f2")]))) (.bin .div (.idx (.idx (.var n!"C") (.str n!"V8ddLR")) (.list es![(.var n!"f1"), (.var n!"f4"), (.var n!"f3"), (.var n!"f2")])) (.var n!"Nc"))),
        (.bin .add (.bin .add (.str n!"F") (.var n!"qqqq")) (.str n!"9")) : (.bin .div (.neg (.idx (.idx (.var n!"C") (.str n!"S8ddRR")) (.list es![(.var n!"f3"), (.var n!"f2"), (.var n!"f1"), (.var n!"f4")]))) (.int 16)),
        (.bin .add (.bin .add (.str n!"F") (.var n!"qqqq")) (.str n!"10")) : (.bin .add (.bin .div (.neg (.idx (.idx (.var n!"C") (.str n!"S1ddRR")) (.list es![(.var n!"f1"), (.var n!"f4"), (.var n!"f3"), (.var n!"f2")]))) (.int 8)) (.bin .div (.idx (.idx (.var n!"C") (.str n!"S8ddRR")) (.list es![(.var n!"f3"), (.var n!"f2"), (.var n!"f1"), (.var n!"f4")])) (.bin .mul (.int 16) (.var n!"Nc")))),
        (.bin .add (.bin .add (.str n!"F") (.var n!"qqqq")) (.str n!"1p")) : (.idx (.idx (.var n!"C") (.str n!"VddRR")) (.list es![(.var n!"f3"), (.var n!"f4"), (.var n!"f1"), (.var n!"f2")])),
        (.bin .add (.bin .add (.str n!"F") (.var n!"qqqq")) (.str n!"2p")) : (.idx (.idx (.var n!"C") (.str n!"VddRR")) (.list es![(.var n!"f1"), (.var n!"f4"), (.var n!"f3"), (.var n!"f2")])),
        (.bin .add (.bin .add (.str n!"F") (.var n!"qqqq")) (.str n!"3p")) : (.bin .sub (.idx (.idx (.var n!"C") (.str n!"V1ddLR")) (.list es![(.var n!"f3"), (.var n!"f4"), (.var n!"f1"), (.var n!"f2")])) (.bin .div (.idx (.idx (.var n!"C") (.str n!"V8ddLR")) (.list es![(.var n!"f3"), (.var n!"f4"), (.var n!"f1"), (.var n!"f2")])) (.bin .mul (.int 2) (.var n!"Nc")))),
        (.bin .add (.bin .add (.str n!"F") (.var n!"qqqq")) (.str n!"4p")) : (.bin .div (.idx (.idx (.var n!"C") (.str n!"V8ddLR")) (.list es![(.var n!"f3"), (.var n!"f4"), (.var n!"f1"), (.var n!"f2")])) (.int 2)),
        (.bin .add (.bin .add (.str n!"F") (.var n!"qqqq")) (.str n!"5p")) : (.bin .sub (.bin .sub (.meth (.idx (.idx (.var n!"C") (.str n!"S1ddRR")) (.list es![(.var n!"f4"), (.var n!"f3"), (.var n!"f2"), (.var n!"f1")])) n!"conj" es![]) (.bin .div (.meth (.idx (.idx (.var n!"C") (.str n!"S8ddRR")) (.list es![(.var n!"f4"), (.var n!"f1"), (.var n!"f2"), (.var n!"f3")])) n!"conj" es![]) (.int 4))) (.bin .div (.bin .div (.meth (.idx (.idx (.var n!"C") (.str n!"S8ddRR")) (.list es![(.var n!"f4"), (.var n!"f3"), (.var n!"f2"), (.var n!"f1")])) n!"conj" es![]) (.int 2)) (.var n!"Nc"))),
        (.bin .add (.bin .add (.str n!"F") (.var n!"qqqq")) (.str n!"6p")) : (.bin .add (.bin .add (.bin .div (.neg (.meth (.idx (.idx (.var n!"C") (.str n!"S1ddRR")) (.list es![(.var n!"f4"), (.var n!"f1"), (.var n!"f2"), (.var n!"f3")])) n!"conj" es![])) (.int 2)) (.bin .div (.bin .div (.meth (.idx (.idx (.var n!"C") (.str n!"S8ddRR")) (.list es![(.var n!"f4"), (.var n!"f1"), (.var n!"f2"), (.var n!"f3")])) n!"conj" es![]) (.int 4)) (.var n!"Nc"))) (.bin .div (.meth (.idx (.idx (.var n!"C") (.str n!"S8ddRR")) (.list es![(.var n!"f4"), (.var n!"f3"), (.var n!"f2"), (.var n!"f1")])) n!"conj" es![]) (.int 2))),
        (.bin .add (.bin .add (.str n!"F") (.var n!"qqqq")) (.str n!"7p")) : (.neg (.idx (.idx (.var n!"C") (.str n!"V8ddLR")) (.list es![(.var n!"f3"), (.var n!"f2"), (.var n!"f1"), (.var n!"f4")]))),
        (.bin .add (.bin .add (.str n!"F") (.var n!"qqqq")) (.str n!"8p")) : (.bin .add (.bin .mul (.neg (.int 2)) (.idx (.idx (.var n!"C") (.str n!"V1ddLR")) (.list es![(.var n!"f3"), (.var n!"f2"), (.var n!"f1"), (.var n!"f4")]))) (.bin .div (.idx (.idx (.var n!"C") (.str n!"V8ddLR")) (.list es![(.var n!"f3"), (.var n!"f2"), (.var n!"f1"), (.var n!"f4")])) (.var n!"Nc"))),
        (.bin .add (.bin .add (.str n!"F") (.var n!"qqqq")) (.str n!"9p")) : (.bin .div (.neg (.meth (.idx (.idx (.var n!"C") (.str n!"S8ddRR")) (.list es![(.var n!"f4"), (.var n!"f1"), (.var n!"f2"), (.var n!"f3")])) n!"conj" es![])) (.int 16)),
        (.bin .add (.bin .add (.str n!"F") (.var n!"qqqq")) (.str n!"10p")) : (.bin .add (.bin .div (.neg (.meth (.idx (.idx (.var n!"C") (.str n!"S1ddRR")) (.list es![(.var n!"f4"), (.var n!"f1"), (.var n!"f2"), (.var n!"f3")])) n!"conj" es![])) (.int 8)) (.bin .div (.bin .div (.meth (.idx (.idx (.var n!"C") (.str n!"S8ddRR")) (.list es![(.var n!"f4"), (.var n!"f1"), (.var n!"f2"), (.var n!"f3")])) n!"conj" es![]) (.int 16)) (.var n!"Nc")))])] st![],
    .assign n!"classVuuuu" (.list es![(.str n!"ucuu"), (.str n!"cucc"), (.str n!"cuuu"), (.str n!"uccc")]),
    .ite (.bin .isin (.var n!"qqqq") (.var n!"classVuuuu")) st![.assign n!"f1" (.idx (.var n!"uflav") (.idx (.var n!"qqqq") (.int 0))),
      .assign n!"f2" (.idx (.var n!"uflav") (.idx (.var n!"qqqq") (.int 1))),
      .assign n!"f3" (.idx (.var n!"uflav") (.idx (.var n!"qqqq") (.int 2))),
      .assign n!"f4" (.idx (.var n!"uflav") (.idx (.var n!"qqqq") (.int 3))),
      .ret (.dict kv![
        (.bin .add (.bin .add (.str n!"F") (.var n!"qqqq")) (.str n!"1")) : (.idx (.idx (.var n!"C") (.str n!"VuuLL")) (.list es![(.var n!"f3"), (.var n!"f4"), (.var n!"f1"), (.var n!"f2")])),
        (.bin .add (.bin .add (.str n!"F") (.var n!"qqqq")) (.str n!"2")) : (.idx (.idx (.var n!"C") (.str n!"VuuLL")) (.list es![(.var n!"f1"), (.var n!"f4"), (.var n!"f3"), (.var n!"f2")])),
        (.bin .add (.bin .add (.str n!"F") (.var n!"qqqq")) (.str n!"3")) : (.bin .sub (.idx (.idx (.var n!"C") (.str n!"V1uuLR")) (.list es![(.var n!"f1"), (.var n!"f2"), (.var n!"f3"), (.var n!"f4")])) (.bin .div (.idx (.idx (.var n!"C") (.str n!"V8uuLR")) (.list es![(.var n!"f1"), (.var n!"f2"), (.var n!"f3"), (.var n!"f4")])) (.bin .mul (.int 2) (.var n!"Nc")))),
        (.bin .add (.bin .add (.str n!"F") (.var n!"qqqq")) (.str n!"4")) : (.bin .div (.idx (.idx (.var n!"C") (.str n!"V8uuLR")) (.list es![(.var n!"f1"), (.var n!"f2"), (.var n!"f3"), (.var n!"f4")])) (.int 2)),
        (.bin .add (.bin .add (.str n!"F") (.var n!"qqqq")) (.str n!"5")) : (.bin .sub (.bin .sub (.idx (.idx (.var n!"C") (.str n!"S1uuRR")) (.list es![(.var n!"f3"), (.var n!"f4"), (.var n!"f1"), (.var n!"f2")])) (.bin .div (.idx (.idx (.var n!"C") (.str n!"S8uuRR")) (.list es![(.var n!"f3"), (.var n!"f2"), (.var n!"f1"), (.var n!"f4")])) (.int 4))) (.bin .div (.idx (.idx (.var n!"C") (.str n!"S8uuRR")) (.list es![(.var n!"f3"), (.var n!"f4"), (.var n!"f1"), (.var n!"f2")])) (.bin .mul (.int 2) (.var n!"Nc")))),
        (.bin .add (.bin .add (.str n!"F") (.var n!"qqqq")) (.str n!"6")) : (.bin .add (.bin .add (.bin .div (.neg (.idx (.idx (.var n!"C") (.str n!"S1uuRR")) (.list es![(.var n!"f1"), (.var n!"f4"), (.var n!"f3"), (.var n!"f2")]))) (.int 2)) (.bin .div (.idx (.idx (.var n!"C") (.str n!"S8uuRR")) (.list es![(.var n!"f3"), (.var n!"f2"), (.var n!"f1"), (.var n!"f4")])) (.bin .mul (.int 4) (.var n!"Nc")))) (.bin .div (.idx (.idx (.var n!"C") (.str n!"S8uuRR")) (.list es![(.var n!"f3"), (.var n!"f4"), (.var n!"f1"), (.var n!"f2")])) (.int 2))),
        (.bin .add (.bin .add (.str n!"F") (.var n!"qqqq")) (.str n!"7")) : (.neg (.idx (.idx (.var n!"C") (.str n!"V8uuLR")) (.list es![(.var n!"f1"), (.var n!"f4"), (.var n!"f3"), (.var n!"f2")]))),
        (.bin .add (.bin .add (.str n!"F") (.var n!"qqqq")) (.str n!"8")) : (.bin .add (.bin .mul (.neg (.int 2)) (.idx (.idx (.var n!"C") (.str n!"V1uuLR")) (.list es![(.var n!"f1"), (.var n!"f4"), (.var n!"f3"), (.var n!"f2")]))) (.bin .div (.idx (.idx (.var n!"C") (.str n!"V8uuLR")) (.list es![(.var n!"f1"), (.var n!"f4"), (.var n!"f3"), (.var n!"f2")])) (.var n!"Nc"))),
        (.bin .add (.bin .add (.str n!"F") (.var n!"qqqq")) (.str n!"9")) : (.bin .div (.neg (.idx (.idx (.var n!"C") (.str n!"S8uuRR")) (.list es![(.var n!"f3"), (.var n!"f2"), (.var n!"f1"), (.var n!"f4")]))) (.int 16)),
        (.bin .add (.bin .add (.str n!"F") (.var n!"qqqq")) (.str n!"10")) : (.bin .add (.bin .div (.neg (.idx (.idx (.var n!"C") (.str n!"S1uuRR")) (.list es![(.var n!"f1"), (.var n!"f4"), (.var n!"f3"), (.var n!"f2")]))) (.int 8)) (.bin .div (.idx (.idx (.var n!"C") (.str n!"S8uuRR")) (.list es![(.var n!"f3"), (.var n!"f2"), (.var n!"f1"), (.var n!"f4")])) (.bin .mul (.int 16) (.var n!"Nc")))),
        (.bin .add (.bin .add (.str n!"F") (.var n!"qqqq")) (.str n!"1p")) : (.idx (.idx (.var n!"C") (.str n!"VuuRR")) (.list es![(.var n!"f3"), (.var n!"f4"), (.var n!"f1"), (.var n!"f2")])),
        (.bin .add (.bin .add (.str n!"F") (.var n!"qqqq")) (.str n!"2p")) : (.idx (.idx (.var n!"C") (.str n!"VuuRR")) (.list es![(.var n!"f1"), (.var n!"f3"), (.var n!"f4"), (.var n!"f2")])),
        (.bin .add (.bin .add (.str n!"F") (.var n!"qqqq")) (.str n!"3p")) : (.bin .sub (.idx (.idx (.var n!"C") (.str n!"V1uuLR")) (.list es![(.var n!"f3"), (.var n!"f4"), (.var n!"f1"), (.var n!"f2")])) (.bin .div (.idx (.idx (.var n!"C") (.str n!"V8uuLR")) (.list es![(.var n!"f3"), (.var n!"f4"), (.var n!"f1"), (.var n!"f2")])) (.bin .mul (.int 2) (.var n!"Nc")))),
        (.bin .add (.bin .add (.str n!"F") (.var n!"qqqq")) (.str n!"4p")) : (.bin .div (.idx (.idx (.var n!"C") (.str n!"V8uuLR")) (.list es![(.var n!"f3"), (.var n!"f4"), (.var n!"f1"), (.var n!"f2")])) (.int 2)),
        (.bin .add (.bin .add (.str n!"F") (.var n!"qqqq")) (.str n!"5p")) : (.bin .sub (.bin .sub (.meth (.idx (.idx (.var n!"C") (.str n!"S1uuRR")) (.list es![(.var n!"f4"), (.var n!"f3"), (.var n!"f2"), (.var n!"f1")])) n!"conj" es![]) (.bin .div (.meth (.idx (.idx (.var n!"C") (.str n!"S8uuRR")) (.list es![(.var n!"f4"), (.var n!"f1"), (.var n!"f2"), (.var n!"f3")])) n!"conj" es![]) (.int 4))) (.bin .div (.bin .div (.meth (.idx (.idx (.var n!"C") (.str n!"S8uuRR")) (.list es![(.var n!"f4"), (.var n!"f3"), (.var n!"f2"), (.var n!"f1")])) n!"conj" es![]) (.int 2)) (.var n!"Nc"))),
        (.bin .add (.bin .add (.str n!"F") (.var n!"qqqq")) (.str n!"6p")) : (.bin .add (.bin .add (.bin .div (.neg (.meth (.idx (.idx (.var n!"C") (.str n!"S1uuRR")) (.list es![(.var n!"f4"), (.var n!"f1"), (.var n!"f2"), (.var n!"f3")])) n!"conj" es![])) (.int 2)) (.bin .div (.bin .div (.meth (.idx (.idx (.var n!"C") (.str n!"S8uuRR")) (.list es![(.var n!"f4"), (.var n!"f1"), (.var n!"f2"), (.var n!"f3")])) n!"conj" es![]) (.int 4)) (.var n!"Nc"))) (.bin .div (.meth (.idx (.idx (.var n!"C") (.str n!"S8uuRR")) (.list es![(.var n!"f4"), (.var n!"f3"), (.var n!"f2"), (.var n!"f1")])) n!"conj" es![]) (.int 2))),
        (.bin .add (.bin .add (.str n!"F") (.var n!"qqqq")) (.str n!"7p")) : (.neg (.idx (.idx (.var n!"C") (.str n!"V8uuLR")) (.list es![(.var n!"f3"), (.var n!"f2"), (.var n!"f1"), (.var n!"f4")]))),
        (.bin .add (.bin .add (.str n!"F") (.var n!"qqqq")) (.str n!"8p")) : (.bin .add (.bin .mul (.neg (.int 2)) (.idx (.idx (.var n!"C") (.str n!"V1uuLR")) (.list es![(.var n!"f3"), (.var n!"f2"), (.var n!"f1"), (.var n!"f4")]))) (.bin .div (.idx (.idx (.var n!"C") (.str n!"V8uuLR")) (.list es![(.var n!"f3"), (.var n!"f2"), (.var n!"f1"), (.var n!"f4")])) (.var n!"Nc"))),
        (.bin .add (.bin .add (.str n!"F") (.var n!"qqqq")) (.str n!"9p")) : (.bin .div (.neg (.meth (.idx (.idx (.var n!"C") (.str n!"S8uuRR")) (.list es![(.var n!"f4"), (.var n!"f1"), (.var n!"f2"), (.var n!"f3")])) n!"conj" es![])) (.int 16)),
        (.bin .add (.bin .add (.str n!"F") (.var n!"qqqq")) (.str n!"10p")) : (.bin .add (.bin .div (.neg (.meth (.idx (.idx (.var n!"C") (.str n!"S1uuRR")) (.list es![(.var n!"f4"), (.var n!"f1"), (.var n!"f2"), (.var n!"f3")])) n!"conj" es![])) (.int 8)) (.bin .div (.bin .div (.meth (.idx (.idx (.var n!"C") (.str n!"S8uuRR")) (.list es![(.var n!"f4"), (.var n!"f1"), (.var n!"f2"), (.var n!"f3")])) n!"conj" es![]) (.int 16)) (.var n!"Nc")))])] st![.raise]]⟩

/-- wet.py:627-739 `_Fierz_to_Bern_III_IV_V` -/
def fn_Fierz_to_Bern_III_IV_V : Fn := ⟨n!"_Fierz_to_Bern_III_IV_V", [n!"Fqqqq", n!"qqqq"],
  st![.ite (.bin .isin (.var n!"qqqq") (.list es![(.str n!"sbss"), (.str n!"dbdd"), (.str n!"dbds"), (.str n!"sbsd"), (.str n!"bsbd"), (.str n!"dsdd")])) st![.ret (.dict kv![
        (.bin .add (.str n!"1") (.var n!"qqqq")) : (.bin .add (.bin .div (.neg (.idx (.var n!"Fqqqq") (.bin .add (.bin .add (.str n!"F") (.var n!"qqqq")) (.str n!"1")))) (.int 3)) (.bin .div (.bin .mul (.int 4) (.idx (.var n!"Fqqqq") (.bin .add (.bin .add (.str n!"F") (.var n!"qqqq")) (.str n!"3")))) (.int 3))),
        (.bin .add (.str n!"3") (.var n!"qqqq")) : (.bin .sub (.bin .div (.idx (.var n!"Fqqqq") (.bin .add (.bin .add (.str n!"F") (.var n!"qqqq")) (.str n!"1"))) (.int 12)) (.bin .div (.idx (.var n!"Fqqqq") (.bin .add (.bin .add (.str n!"F") (.var n!"qqqq")) (.str n!"3"))) (.int 12))),
        (.bin .add (.str n!"5") (.var n!"qqqq")) : (.bin .add (.bin .div (.neg (.idx (.var n!"Fqqqq") (.bin .add (.bin .add (.str n!"F") (.var n!"qqqq")) (.str n!"5p")))) (.int 3)) (.bin .div (.bin .mul (.int 4) (.idx (.var n!"Fqqqq") (.bin .add (.bin .add (.str n!"F") (.var n!"qqqq")) (.str n!"7p")))) (.int 3))),
        (.bin .add (.str n!"7") (.var n!"qqqq")) : (.bin .add (.bin .sub (.bin .div (.idx (.var n!"Fqqqq") (.bin .add (.bin .add (.str n!"F") (.var n!"qqqq")) (.str n!"5p"))) (.int 3)) (.bin .div (.idx (.var n!"Fqqqq") (.bin .add (.bin .add (.str n!"F") (.var n!"qqqq")) (.str n!"7p"))) (.int 3))) (.idx (.var n!"Fqqqq") (.bin .add (.bin .add (.str n!"F") (.var n!"qqqq")) (.str n!"9p")))),
        (.bin .add (.str n!"9") (.var n!"qqqq")) : (.bin .sub (.bin .div (.idx (.var n!"Fqqqq") (.bin .add (.bin .add (.str n!"F") (.var n!"qqqq")) (.str n!"5p"))) (.int 48)) (.bin .div (.idx (.var n!"Fqqqq") (.bin .add (.bin .add (.str n!"F") (.var n!"qqqq")) (.str n!"7p"))) (.int 48))),
        (.bin .add (.str n!"1p") (.var n!"qqqq")) : (.bin .add (.bin .div (.neg (.idx (.var n!"Fqqqq") (.bin .add (.bin .add (.str n!"F") (.var n!"qqqq")) (.str n!"1p")))) (.int 3)) (.bin .div (.bin .mul (.int 4) (.idx (.var n!"Fqqqq") (.bin .add (.bin .add (.str n!"F") (.var n!"qqqq")) (.str n!"3p")))) (.int 3))),
        (.bin .add (.str n!"3p") (.var n!"qqqq")) : (.bin .sub (.bin .div (.idx (.var n!"Fqqqq") (.bin .add (.bin .add (.str n!"F") (.var n!"qqqq")) (.str n!"1p"))) (.int 12)) (.bin .div (.idx (.var n!"Fqqqq") (.bin .add (.bin .add (.str n!"F") (.var n!"qqqq")) (.str n!"3p"))) (.int 12))),
        (.bin .add (.str n!"5p") (.var n!"qqqq")) : (.bin .add (.bin .div (.neg (.idx (.var n!"Fqqqq") (.bin .add (.bin .add (.str n!"F") (.var n!"qqqq")) (.str n!"5")))) (.int 3)) (.bin .div (.bin .mul (.int 4) (.idx (.var n!"Fqqqq") (.bin .add (.bin .add (.str n!"F") (.var n!"qqqq")) (.str n!"7")))) (.int 3))),
        (.bin .add (.str n!"7p") (.var n!"qqqq")) : (.bin .add (.bin .sub (.bin .div (.idx (.var n!"Fqqqq") (.bin .add (.bin .add (.str n!"F") (.var n!"qqqq")) (.str n!"5"))) (.int 3)) (.bin .div (.idx (.var n!"Fqqqq") (.bin .add (.bin .add (.str n!"F") (.var n!"qqqq")) (.str n!"7"))) (.int 3))) (.idx (.var n!"Fqqqq") (.bin .add (.bin .add (.str n!"F") (.var n!"qqqq")) (.str n!"9")))),
        (.bin .add (.str n!"9p") (.var n!"qqqq")) : (.bin .sub (.bin .div (.idx (.var n!"Fqqqq") (.bin .add (.bin .add (.str n!"F") (.var n!"qqqq")) (.str n!"5"))) (.int 48)) (.bin .div (.idx (.var n!"Fqqqq") (.bin .add (.bin .add (.str n!"F") (.var n!"qqqq")) (.str n!"7"))) (.int 48)))])] st![],
    .ite (.bin .isin (.var n!"qqqq") (.list es![(.str n!"dbbb"), (.str n!"sbbb"), (.str n!"dsss")])) st![.ret (.dict kv![
        (.bin .add (.str n!"1") (.var n!"qqqq")) : (.bin .add (.bin .div (.neg (.idx (.var n!"Fqqqq") (.bin .add (.bin .add (.str n!"F") (.var n!"qqqq")) (.str n!"1")))) (.int 3)) (.bin .div (.bin .mul (.int 4) (.idx (.var n!"Fqqqq") (.bin .add (.bin .add (.str n!"F") (.var n!"qqqq")) (.str n!"3")))) (.int 3))),
        (.bin .add (.str n!"3") (.var n!"qqqq")) : (.bin .sub (.bin .div (.idx (.var n!"Fqqqq") (.bin .add (.bin .add (.str n!"F") (.var n!"qqqq")) (.str n!"1"))) (.int 12)) (.bin .div (.idx (.var n!"Fqqqq") (.bin .add (.bin .add (.str n!"F") (.var n!"qqqq")) (.str n!"3"))) (.int 12))),
        (.bin .add (.str n!"5") (.var n!"qqqq")) : (.bin .add (.bin .div (.neg (.idx (.var n!"Fqqqq") (.bin .add (.bin .add (.str n!"F") (.var n!"qqqq")) (.str n!"5")))) (.int 3)) (.bin .div (.bin .mul (.int 4) (.idx (.var n!"Fqqqq") (.bin .add (.bin .add (.str n!"F") (.var n!"qqqq")) (.str n!"7")))) (.int 3))),
        (.bin .add (.str n!"7") (.var n!"qqqq")) : (.bin .add (.bin .sub (.bin .div (.idx (.var n!"Fqqqq") (.bin .add (.bin .add (.str n!"F") (.var n!"qqqq")) (.str n!"5"))) (.int 3)) (.bin .div (.idx (.var n!"Fqqqq") (.bin .add (.bin .add (.str n!"F") (.var n!"qqqq")) (.str n!"7"))) (.int 3))) (.idx (.var n!"Fqqqq") (.bin .add (.bin .add (.str n!"F") (.var n!"qqqq")) (.str n!"9")))),
        (.bin .add (.str n!"9") (.var n!"qqqq")) : (.bin .sub (.bin .div (.idx (.var n!"Fqqqq") (.bin .add (.bin .add (.str n!"F") (.var n!"qqqq")) (.str n!"5"))) (.int 48)) (.bin .div (.idx (.var n!"Fqqqq") (.bin .add (.bin .add (.str n!"F") (.var n!"qqqq")) (.str n!"7"))) (.int 48))),
        (.bin .add (.str n!"1p") (.var n!"qqqq")) : (.bin .add (.bin .div (.neg (.idx (.var n!"Fqqqq") (.bin .add (.bin .add (.str n!"F") (.var n!"qqqq")) (.str n!"1p")))) (.int 3)) (.bin .div (.bin .mul (.int 4) (.idx (.var n!"Fqqqq") (.bin .add (.bin .add (.str n!"F") (.var n!"qqqq")) (.str n!"3p")))) (.int 3))),
        (.bin .add (.str n!"3p") (.var n!"qqqq")) : (.bin .sub (.bin .div (.idx (.var n!"Fqqqq") (.bin .add (.bin .add (.str n!"F") (.var n!"qqqq")) (.str n!"1p"))) (.int 12)) (.bin .div (.idx (.var n!"Fqqqq") (.bin .add (.bin .add (.str n!"F") (.var n!"qqqq")) (.str n!"3p"))) (.int 12))),
        (.bin .add (.str n!"5p") (.var n!"qqqq")) : (.bin .add (.bin .div (.neg (.idx (.var n!"Fqqqq") (.bin .add (.bin .add (.str n!"F") (.var n!"qqqq")) (.str n!"5p")))) (.int 3)) (.bin .div (.bin .mul (.int 4) (.idx (.var n!"Fqqqq") (.bin .add (.bin .add (.str n!"F") (.var n!"qqqq")) (.str n!"7p")))) (.int 3))),
        (.bin .add (.str n!"7p") (.var n!"qqqq")) : (.bin .add (.bin .sub (.bin .div (.idx (.var n!"Fqqqq") (.bin .add (.bin .add (.str n!"F") (.var n!"qqqq")) (.str n!"5p"))) (.int 3)) (.bin .div (.idx (.var n!"Fqqqq") (.bin .add (.bin .add (.str n!"F") (.var n!"qqqq")) (.str n!"7p"))) (.int 3))) (.idx (.var n!"Fqqqq") (.bin .add (.bin .add (.str n!"F") (.var n!"qqqq")) (.str n!"9p")))),
        (.bin .add (.str n!"9p") (.var n!"qqqq")) : (.bin .sub (.bin .div (.idx (.var n!"Fqqqq") (.bin .add (.bin .add (.str n!"F") (.var n!"qqqq")) (.str n!"5p"))) (.int 48)) (.bin .div (.idx (.var n!"Fqqqq") (.bin .add (.bin .add (.str n!"F") (.var n!"qqqq")) (.str n!"7p"))) (.int 48)))])] st![],
    .ite (.bin .isin (.var n!"qqqq") (.list es![(.str n!"sbuu"), (.str n!"sbdd"), (.str n!"sbuu"), (.str n!"sbuc"), (.str n!"sbcu"), (.str n!"sbcc"), (.str n!"dbuu"), (.str n!"dbss"), (.str n!"dbuu"), (.str n!"dbuc"), (.str n!"dbcu"), (.str n!"dbcc"), (.str n!"dsuu"), (.str n!"dsbb"), (.str n!"dsuu"), (.str n!"dsuc"), (.str n!"dscu"), (.str n!"dscc")])) st![.ret (.dict kv![
        (.bin .add (.str n!"1") (.var n!"qqqq")) : (.bin .add (.bin .sub (.bin .add (.bin .div (.neg (.idx (.var n!"Fqqqq") (.bin .add (.bin .add (.str n!"F") (.var n!"qqqq")) (.str n!"1")))) (.int 3)) (.bin .div (.bin .mul (.int 4) (.idx (.var n!"Fqqqq") (.bin .add (.bin .add (.str n!"F") (.var n!"qqqq")) (.str n!"3")))) (.int 3))) (.bin .div (.idx (.var n!"Fqqqq") (.bin .add (.bin .add (.str n!"F") (.var n!"qqqq")) (.str n!"2"))) (.bin .mul (.int 3) (.var n!"Nc")))) (.bin .div (.bin .mul (.int 4) (.idx (.var n!"Fqqqq") (.bin .add (.bin .add (.str n!"F") (.var n!"qqqq")) (.str n!"4")))) (.bin .mul (.int 3) (.var n!"Nc")))),
        (.bin .add (.str n!"2") (.var n!"qqqq")) : (.bin .add (.bin .div (.bin .mul (.neg (.int 2)) (.idx (.var n!"Fqqqq") (.bin .add (.bin .add (.str n!"F") (.var n!"qqqq")) (.str n!"2")))) (.int 3)) (.bin .div (.bin .mul (.int 8) (.idx (.var n!"Fqqqq") (.bin .add (.bin .add (.str n!"F") (.var n!"qqqq")) (.str n!"4")))) (.int 3))),
        (.bin .add (.str n!"3") (.var n!"qqqq")) : (.bin .sub (.bin .add (.bin .sub (.bin .div (.idx (.var n!"Fqqqq") (.bin .add (.bin .add (.str n!"F") (.var n!"qqqq")) (.str n!"1"))) (.int 12)) (.bin .div (.idx (.var n!"Fqqqq") (.bin .add (.bin .add (.str n!"F") (.var n!"qqqq")) (.str n!"3"))) (.int 12))) (.bin .div (.idx (.var n!"Fqqqq") (.bin .add (.bin .add (.str n!"F") (.var n!"qqqq")) (.str n!"2"))) (.bin .mul (.int 12) (.var n!"Nc")))) (.bin .div (.idx (.var n!"Fqqqq") (.bin .add (.bin .add (.str n!"F") (.var n!"qqqq")) (.str n!"4"))) (.bin .mul (.int 12) (.var n!"Nc")))),
        (.bin .add (.str n!"4") (.var n!"qqqq")) : (.bin .sub (.bin .div (.idx (.var n!"Fqqqq") (.bin .add (.bin .add (.str n!"F") (.var n!"qqqq")) (.str n!"2"))) (.int 6)) (.bin .div (.idx (.var n!"Fqqqq") (.bin .add (.bin .add (.str n!"F") (.var n!"qqqq")) (.str n!"4"))) (.int 6))),
        (.bin .add (.str n!"5") (.var n!"qqqq")) : (.bin .add (.bin .sub (.bin .add (.bin .div (.neg (.idx (.var n!"Fqqqq") (.bin .add (.bin .add (.str n!"F") (.var n!"qqqq")) (.str n!"5")))) (.int 3)) (.bin .div (.bin .mul (.int 4) (.idx (.var n!"Fqqqq") (.bin .add (.bin .add (.str n!"F") (.var n!"qqqq")) (.str n!"7")))) (.int 3))) (.bin .div (.idx (.var n!"Fqqqq") (.bin .add (.bin .add (.str n!"F") (.var n!"qqqq")) (.str n!"6"))) (.bin .mul (.int 3) (.var n!"Nc")))) (.bin .div (.bin .mul (.int 4) (.idx (.var n!"Fqqqq") (.bin .add (.bin .add (.str n!"F") (.var n!"qqqq")) (.str n!"8")))) (.bin .mul (.int 3) (.var n!"Nc")))),
        (.bin .add (.str n!"6") (.var n!"qqqq")) : (.bin .add (.bin .div (.bin .mul (.neg (.int 2)) (.idx (.var n!"Fqqqq") (.bin .add (.bin .add (.str n!"F") (.var n!"qqqq")) (.str n!"6")))) (.int 3)) (.bin .div (.bin .mul (.int 8) (.idx (.var n!"Fqqqq") (.bin .add (.bin .add (.str n!"F") (.var n!"qqqq")) (.str n!"8")))) (.int 3))),
        (.bin .add (.str n!"7") (.var n!"qqqq")) : (.bin .sub (.bin .add (.bin .add (.bin .add (.bin .sub (.bin .div (.idx (.var n!"Fqqqq") (.bin .add (.bin .add (.str n!"F") (.var n!"qqqq")) (.str n!"5"))) (.int 3)) (.bin .div (.idx (.var n!"Fqqqq") (.bin .add (.bin .add (.str n!"F") (.var n!"qqqq")) (.str n!"7"))) (.int 3))) (.idx (.var n!"Fqqqq") (.bin .add (.bin .add (.str n!"F") (.var n!"qqqq")) (.str n!"9")))) (.bin .div (.idx (.var n!"Fqqqq") (.bin .add (.bin .add (.str n!"F") (.var n!"qqqq")) (.str n!"10"))) (.var n!"Nc"))) (.bin .div (.idx (.var n!"Fqqqq") (.bin .add (.bin .add (.str n!"F") (.var n!"qqqq")) (.str n!"6"))) (.bin .mul (.int 3) (.var n!"Nc")))) (.bin .div (.idx (.var n!"Fqqqq") (.bin .add (.bin .add (.str n!"F") (.var n!"qqqq")) (.str n!"8"))) (.bin .mul (.int 3) (.var n!"Nc")))),
        (.bin .add (.str n!"8") (.var n!"qqqq")) : (.bin .sub (.bin .add (.bin .mul (.int 2) (.idx (.var n!"Fqqqq") (.bin .add (.bin .add (.str n!"F") (.var n!"qqqq")) (.str n!"10")))) (.bin .div (.bin .mul (.int 2) (.idx (.var n!"Fqqqq") (.bin .add (.bin .add (.str n!"F") (.var n!"qqqq")) (.str n!"6")))) (.int 3))) (.bin .div (.bin .mul (.int 2) (.idx (.var n!"Fqqqq") (.bin .add (.bin .add (.str n!"F") (.var n!"qqqq")) (.str n!"8")))) (.int 3))),
        (.bin .add (.str n!"9") (.var n!"qqqq")) : (.bin .sub (.bin .add (.bin .sub (.bin .div (.idx (.var n!"Fqqqq") (.bin .add (.bin .add (.str n!"F") (.var n!"qqqq")) (.str n!"5"))) (.int 48)) (.bin .div (.idx (.var n!"Fqqqq") (.bin .add (.bin .add (.str n!"F") (.var n!"qqqq")) (.str n!"7"))) (.int 48))) (.bin .div (.idx (.var n!"Fqqqq") (.bin .add (.bin .add (.str n!"F") (.var n!"qqqq")) (.str n!"6"))) (.bin .mul (.int 48) (.var n!"Nc")))) (.bin .div (.idx (.var n!"Fqqqq") (.bin .add (.bin .add (.str n!"F") (.var n!"qqqq")) (.str n!"8"))) (.bin .mul (.int 48) (.var n!"Nc")))),
        (.bin .add (.str n!"10") (.var n!"qqqq")) : (.bin .sub (.bin .div (.idx (.var n!"Fqqqq") (.bin .add (.bin .add (.str n!"F") (.var n!"qqqq")) (.str n!"6"))) (.int 24)) (.bin .div (.idx (.var n!"Fqqqq") (.bin .add (.bin .add (.str n!"F") (.var n!"qqqq")) (.str n!"8"))) (.int 24))),
        (.bin .add (.str n!"1p") (.var n!"qqqq")) : (.bin .add (.bin .sub (.bin .add (.bin .div (.neg (.idx (.var n!"Fqqqq") (.bin .add (.bin .add (.str n!"F") (.var n!"qqqq")) (.str n!"1p")))) (.int 3)) (.bin .div (.bin .mul (.int 4) (.idx (.var n!"Fqqqq") (.bin .add (.bin .add (.str n!"F") (.var n!"qqqq")) (.str n!"3p")))) (.int 3))) (.bin .div (.idx (.var n!"Fqqqq") (.bin .add (.bin .add (.str n!"F") (.var n!"qqqq")) (.str n!"2p"))) (.bin .mul (.int 3) (.var n!"Nc")))) (.bin .div (.bin .mul (.int 4) (.idx (.var n!"Fqqqq") (.bin .add (.bin .add (.str n!"F") (.var n!"qqqq")) (.str n!"4p")))) (.bin .mul (.int 3) (.var n!"Nc")))),
        (.bin .add (.str n!"2p") (.var n!"qqqq")) : (.bin .add (.bin .div (.bin .mul (.neg (.int 2)) (.idx (.var n!"Fqqqq") (.bin .add (.bin .add (.str n!"F") (.var n!"qqqq")) (.str n!"2p")))) (.int 3)) (.bin .div (.bin .mul (.int 8) (.idx (.var n!"Fqqqq") (.bin .add (.bin .add (.str n!"F") (.var n!"qqqq")) (.str n!"4p")))) (.int 3))),
        (.bin .add (.str n!"3p") (.var n!"qqqq")) : (.bin .sub (.bin .add (.bin .sub (.bin .div (.idx (.var n!"Fqqqq") (.bin .add (.bin .add (.str n!"F") (.var n!"qqqq")) (.str n!"1p"))) (.int 12)) (.bin .div (.idx (.var n!"Fqqqq") (.bin .add (.bin .add (.str n!"F") (.var n!"qqqq")) (.str n!"3p"))) (.int 12))) (.bin .div (.idx (.var n!"Fqqqq") (.bin .add (.bin .add (.str n!"F") (.var n!"qqqq")) (.str n!"2p"))) (.bin .mul (.int 12) (.var n!"Nc")))) (.bin .div (.idx (.var n!"Fqqqq") (.bin .add (.bin .add (.str n!"F") (.var n!"qqqq")) (.str n!"4p"))) (.bin .mul (.int 12) (.var n!"Nc")))),
        (.bin .add (.str n!"4p") (.var n!"qqqq")) : (.bin .sub (.bin .div (.idx (.var n!"Fqqqq") (.bin .add (.bin .add (.str n!"F") (.var n!"qqqq")) (.str n!"2p"))) (.int 6)) (.bin .div (.idx (.var n!"Fqqqq") (.bin .add (.bin .add (.str n!"F") (.var n!"qqqq")) (.str n!"4p"))) (.int 6))),
        (.bin .add (.str n!"5p") (.var n!"qqqq")) : (.bin .add (.bin .sub (.bin .add (.bin .div (.neg (.idx (.var n!"Fqqqq") (.bin .add (.bin .add (.str n!"F") (.var n!"qqqq")) (.str n!"5p")))) (.int 3)) (.bin .div (.bin .mul (.int 4) (.idx (.var n!"Fqqqq") (.bin .add (.bin .add (.str n!"F") (.var n!"qqqq")) (.str n!"7p")))) (.int 3))) (.bin .div (.idx (.var n!"Fqqqq") (.bin .add (.bin .add (.str n!"F") (.var n!"qqqq")) (.str n!"6p"))) (.bin .mul (.int 3) (.var n!"Nc")))) (.bin .div (.bin .mul (.int 4) (.idx (.var n!"Fqqqq") (.bin .add (.bin .add (.str n!"F") (.var n!"qqqq")) (.str n!"8p")))) (.bin .mul (.int 3) (.var n!"Nc")))),
        (.bin .add (.str n!"6p") (.var n!"qqqq")) : (.bin .add (.bin .div (.bin .mul (.neg (.int 2)) (.idx (.var n!"Fqqqq") (.bin .add (.bin .add (.str n!"F") (.var n!"qqqq")) (.str n!"6p")))) (.int 3)) (.bin .div (.bin .mul (.int 8) (.idx (.var n!"Fqqqq") (.bin .add (.bin .add (.str n!"F") (.var n!"qqqq")) (.str n!"8p")))) (.int 3))),
        (.bin .add (.str n!"7p") (.var n!"qqqq")) : (.bin .sub (.bin .add (.bin .add (.bin .add (.bin .sub (.bin .div (.idx (.var n!"Fqqqq") (.bin .add (.bin .add (.str n!"F") (.var n!"qqqq")) (.str n!"5p"))) (.int 3)) (.bin .div (.idx (.var n!"Fqqqq") (.bin .add (.bin .add (.str n!"F") (.var n!"qqqq")) (.str n!"7p"))) (.int 3))) (.idx (.var n!"Fqqqq") (.bin .add (.bin .add (.str n!"F") (.var n!"qqqq")) (.str n!"9p")))) (.bin .div (.idx (.var n!"Fqqqq") (.bin .add (.bin .add (.str n!"F") (.var n!"qqqq")) (.str n!"10p"))) (.var n!"Nc"))) (.bin .div (.idx (.var n!"Fqqqq") (.bin .add (.bin .add (.str n!"F") (.var n!"qqqq")) (.str n!"6p"))) (.bin .mul (.int 3) (.var n!"Nc")))) (.bin .div (.idx (.var n!"Fqqqq") (.bin .add (.bin .add (.str n!"F") (.var n!"qqqq")) (.str n!"8p"))) (.bin .mul (.int 3) (.var n!"Nc")))),
        (.bin .add (.str n!"8p") (.var n!"qqqq")) : (.bin .sub (.bin .add (.bin .mul (.int 2) (.idx (.var n!"Fqqqq") (.bin .add (.bin .add (.str n!"F") (.var n!"qqqq")) (.str n!"10p")))) (.bin .div (.bin .mul (.int 2) (.idx (.var n!"Fqqqq") (.bin .add (.bin .add (.str n!"F") (.var n!"qqqq")) (.str n!"6p")))) (.int 3))) (.bin .div (.bin .mul (.int 2) (.idx (.var n!"Fqqqq") (.bin .add (.bin .add (.str n!"F") (.var n!"qqqq")) (.str n!"8p")))) (.int 3))),
        (.bin .add (.str n!"9p") (.var n!"qqqq")) : (.bin .sub (.bin .add (.bin .sub (.bin .div (.idx (.var n!"Fqqqq") (.bin .add (.bin .add (.str n!"F") (.var n!"qqqq")) (.str n!"5p"))) (.int 48)) (.bin .div (.idx (.var n!"Fqqqq") (.bin .add (.bin .add (.str n!"F") (.var n!"qqqq")) (.str n!"7p"))) (.int 48))) (.bin .div (.idx (.var n!"Fqqqq") (.bin .add (.bin .add (.str n!"F") (.var n!"qqqq")) (.str n!"6p"))) (.bin .mul (.int 48) (.var n!"Nc")))) (.bin .div (.idx (.var n!"Fqqqq") (.bin .add (.bin .add (.str n!"F") (.var n!"qqqq")) (.str n!"8p"))) (.bin .mul (.int 48) (.var n!"Nc")))),
        (.bin .add (.str n!"10p") (.var n!"qqqq")) : (.bin .sub (.bin .div (.idx (.var n!"Fqqqq") (.bin .add (.bin .add (.str n!"F") (.var n!"qqqq")) (.str n!"6p"))) (.int 24)) (.bin .div (.idx (.var n!"Fqqqq") (.bin .add (.bin .add (.str n!"F") (.var n!"qqqq")) (.str n!"8p"))) (.int 24)))])] st![],
    .raise]⟩

/-- wet.py:741-797 `_Bern_to_Fierz_III_IV_V` -/
def fn_Bern_to_Fierz_III_IV_V : Fn := ⟨n!"_Bern_to_Fierz_III_IV_V", [n!"C", n!"qqqq"],
  st![.ite (.bin .isin (.var n!"qqqq") (.list es![(.str n!"sbss"), (.str n!"dbdd"), (.str n!"dbds"), (.str n!"sbsd"), (.str n!"bsbd"), (.str n!"dsdd")])) st![.ret (.dict kv![
        (.bin .add (.bin .add (.str n!"F") (.var n!"qqqq")) (.str n!"1")) : (.bin .add (.idx (.var n!"C") (.bin .add (.str n!"1") (.var n!"qqqq"))) (.bin .mul (.int 16) (.idx (.var n!"C") (.bin .add (.str n!"3") (.var n!"qqqq"))))),
        (.bin .add (.bin .add (.str n!"F") (.var n!"qqqq")) (.str n!"1p")) : (.bin .add (.idx (.var n!"C") (.bin .add (.str n!"1p") (.var n!"qqqq"))) (.bin .mul (.int 16) (.idx (.var n!"C") (.bin .add (.str n!"3p") (.var n!"qqqq"))))),
        (.bin .add (.bin .add (.str n!"F") (.var n!"qqqq")) (.str n!"3")) : (.bin .add (.idx (.var n!"C") (.bin .add (.str n!"1") (.var n!"qqqq"))) (.bin .mul (.int 4) (.idx (.var n!"C") (.bin .add (.str n!"3") (.var n!"qqqq"))))),
        (.bin .add (.bin .add (.str n!"F") (.var n!"qqqq")) (.str n!"3p")) : (.bin .add (.idx (.var n!"C") (.bin .add (.str n!"1p") (.var n!"qqqq"))) (.bin .mul (.int 4) (.idx (.var n!"C") (.bin .add (.str n!"3p") (.var n!"qqqq"))))),
        (.bin .add (.bin .add (.str n!"F") (.var n!"qqqq")) (.str n!"5")) : (.bin .add (.idx (.var n!"C") (.bin .add (.str n!"5p") (.var n!"qqqq"))) (.bin .mul (.int 64) (.idx (.var n!"C") (.bin .add (.str n!"9p") (.var n!"qqqq"))))),
        (.bin .add (.bin .add (.str n!"F") (.var n!"qqqq")) (.str n!"5p")) : (.bin .add (.idx (.var n!"C") (.bin .add (.str n!"5") (.var n!"qqqq"))) (.bin .mul (.int 64) (.idx (.var n!"C") (.bin .add (.str n!"9") (.var n!"qqqq"))))),
        (.bin .add (.bin .add (.str n!"F") (.var n!"qqqq")) (.str n!"7")) : (.bin .add (.idx (.var n!"C") (.bin .add (.str n!"5p") (.var n!"qqqq"))) (.bin .mul (.int 16) (.idx (.var n!"C") (.bin .add (.str n!"9p") (.var n!"qqqq"))))),
        (.bin .add (.bin .add (.str n!"F") (.var n!"qqqq")) (.str n!"7p")) : (.bin .add (.idx (.var n!"C") (.bin .add (.str n!"5") (.var n!"qqqq"))) (.bin .mul (.int 16) (.idx (.var n!"C") (.bin .add (.str n!"9") (.var n!"qqqq"))))),
        (.bin .add (.bin .add (.str n!"F") (.var n!"qqqq")) (.str n!"9")) : (.bin .sub (.idx (.var n!"C") (.bin .add (.str n!"7p") (.var n!"qqqq"))) (.bin .mul (.int 16) (.idx (.var n!"C") (.bin .add (.str n!"9p") (.var n!"qqqq"))))),
        (.bin .add (.bin .add (.str n!"F") (.var n!"qqqq")) (.str n!"9p")) : (.bin .sub (.idx (.var n!"C") (.bin .add (.str n!"7") (.var n!"qqqq"))) (.bin .mul (.int 16) (.idx (.var n!"C") (.bin .add (.str n!"9") (.var n!"qqqq")))))])] st![],
    .ite (.bin .isin (.var n!"qqqq") (.list es![(.str n!"dbbb"), (.str n!"sbbb"), (.str n!"dsss")])) st![.ret (.dict kv![
        (.bin .add (.bin .add (.str n!"F") (.var n!"qqqq")) (.str n!"1")) : (.bin .add (.idx (.var n!"C") (.bin .add (.str n!"1") (.var n!"qqqq"))) (.bin .mul (.int 16) (.idx (.var n!"C") (.bin .add (.str n!"3") (.var n!"qqqq"))))),
        (.bin .add (.bin .add (.str n!"F") (.var n!"qqqq")) (.str n!"1p")) : (.bin .add (.idx (.var n!"C") (.bin .add (.str n!"1p") (.var n!"qqqq"))) (.bin .mul (.int 16) (.idx (.var n!"C") (.bin .add (.str n!"3p") (.var n!"qqqq"))))),
        (.bin .add (.bin .add (.str n!"F") (.var n!"qqqq")) (.str n!"3")) : (.bin .add (.idx (.var n!"C") (.bin .add (.str n!"1") (.var n!"qqqq"))) (.bin .mul (.int 4) (.idx (.var n!"C") (.bin .add (.str n!"3") (.var n!"qqqq"))))),
        (.bin .add (.bin .add (.str n!"F") (.var n!"qqqq")) (.str n!"3p")) : (.bin .add (.idx (.var n!"C") (.bin .add (.str n!"1p") (.var n!"qqqq"))) (.bin .mul (.int 4) (.idx (.var n!"C") (.bin .add (.str n!"3p") (.var n!"qqqq"))))),
        (.bin .add (.bin .add (.str n!"F") (.var n!"qqqq")) (.str n!"5")) : (.bin .add (.idx (.var n!"C") (.bin .add (.str n!"5") (.var n!"qqqq"))) (.bin .mul (.int 64) (.idx (.var n!"C") (.bin .add (.str n!"9") (.var n!"qqqq"))))),
        (.bin .add (.bin .add (.str n!"F") (.var n!"qqqq")) (.str n!"5p")) : (.bin .add (.idx (.var n!"C") (.bin .add (.str n!"5p") (.var n!"qqqq"))) (.bin .mul (.int 64) (.idx (.var n!"C") (.bin .add (.str n!"9p") (.var n!"qqqq"))))),
        (.bin .add (.bin .add (.str n!"F") (.var n!"qqqq")) (.str n!"7")) : (.bin .add (.idx (.var n!"C") (.bin .add (.str n!"5") (.var n!"qqqq"))) (.bin .mul (.int 16) (.idx (.var n!"C") (.bin .add (.str n!"9") (.var n!"qqqq"))))),
        (.bin .add (.bin .add (.str n!"F") (.var n!"qqqq")) (.str n!"7p")) : (.bin .add (.idx (.var n!"C") (.bin .add (.str n!"5p") (.var n!"qqqq"))) (.bin .mul (.int 16) (.idx (.var n!"C") (.bin .add (.str n!"9p") (.var n!"qqqq"))))),
        (.bin .add (.bin .add (.str n!"F") (.var n!"qqqq")) (.str n!"9")) : (.bin .sub (.idx (.var n!"C") (.bin .add (.str n!"7") (.var n!"qqqq"))) (.bin .mul (.int 16) (.idx (.var n!"C") (.bin .add (.str n!"9") (.var n!"qqqq"))))),
        (.bin .add (.bin .add (.str n!"F") (.var n!"qqqq")) (.str n!"9p")) : (.bin .sub (.idx (.var n!"C") (.bin .add (.str n!"7p") (.var n!"qqqq"))) (.bin .mul (.int 16) (.idx (.var n!"C") (.bin .add (.str n!"9p") (.var n!"qqqq")))))])] st![],
    .ite (.bin .isin (.var n!"qqqq") (.list es![(.str n!"sbuu"), (.str n!"sbdd"), (.str n!"sbuu"), (.str n!"sbuc"), (.str n!"sbcu"), (.str n!"sbcc"), (.str n!"dbuu"), (.str n!"dbss"), (.str n!"dbuu"), (.str n!"dbuc"), (.str n!"dbcu"), (.str n!"dbcc"), (.str n!"dsuu"), (.str n!"dsbb"), (.str n!"dsuu"), (.str n!"dsuc"), (.str n!"dscu"), (.str n!"dscc")])) st![.ret (.dict kv![
        (.bin .add (.bin .add (.str n!"F") (.var n!"qqqq")) (.str n!"1")) : (.bin .sub (.bin .add (.bin .sub (.idx (.var n!"C") (.bin .add (.str n!"1") (.var n!"qqqq"))) (.bin .div (.idx (.var n!"C") (.bin .add (.str n!"2") (.var n!"qqqq"))) (.int 6))) (.bin .mul (.int 16) (.idx (.var n!"C") (.bin .add (.str n!"3") (.var n!"qqqq"))))) (.bin .div (.bin .mul (.int 8) (.idx (.var n!"C") (.bin .add (.str n!"4") (.var n!"qqqq")))) (.int 3))),
        (.bin .add (.bin .add (.str n!"F") (.var n!"qqqq")) (.str n!"10")) : (.bin .add (.bin .mul (.neg (.int 8)) (.idx (.var n!"C") (.bin .add (.str n!"10") (.var n!"qqqq")))) (.bin .div (.idx (.var n!"C") (.bin .add (.str n!"8") (.var n!"qqqq"))) (.int 2))),
        (.bin .add (.bin .add (.str n!"F") (.var n!"qqqq")) (.str n!"10p")) : (.bin .add (.bin .mul (.neg (.int 8)) (.idx (.var n!"C") (.bin .add (.str n!"10p") (.var n!"qqqq")))) (.bin .div (.idx (.var n!"C") (.bin .add (.str n!"8p") (.var n!"qqqq"))) (.int 2))),
        (.bin .add (.bin .add (.str n!"F") (.var n!"qqqq")) (.str n!"1p")) : (.bin .sub (.bin .add (.bin .sub (.idx (.var n!"C") (.bin .add (.str n!"1p") (.var n!"qqqq"))) (.bin .div (.idx (.var n!"C") (.bin .add (.str n!"2p") (.var n!"qqqq"))) (.int 6))) (.bin .mul (.int 16) (.idx (.var n!"C") (.bin .add (.str n!"3p") (.var n!"qqqq"))))) (.bin .div (.bin .mul (.int 8) (.idx (.var n!"C") (.bin .add (.str n!"4p") (.var n!"qqqq")))) (.int 3))),
        (.bin .add (.bin .add (.str n!"F") (.var n!"qqqq")) (.str n!"2")) : (.bin .add (.bin .div (.idx (.var n!"C") (.bin .add (.str n!"2") (.var n!"qqqq"))) (.int 2)) (.bin .mul (.int 8) (.idx (.var n!"C") (.bin .add (.str n!"4") (.var n!"qqqq"))))),
        (.bin .add (.bin .add (.str n!"F") (.var n!"qqqq")) (.str n!"2p")) : (.bin .add (.bin .div (.idx (.var n!"C") (.bin .add (.str n!"2p") (.var n!"qqqq"))) (.int 2)) (.bin .mul (.int 8) (.idx (.var n!"C") (.bin .add (.str n!"4p") (.var n!"qqqq"))))),
        (.bin .add (.bin .add (.str n!"F") (.var n!"qqqq")) (.str n!"3")) : (.bin .sub (.bin .add (.bin .sub (.idx (.var n!"C") (.bin .add (.str n!"1") (.var n!"qqqq"))) (.bin .div (.idx (.var n!"C") (.bin .add (.str n!"2") (.var n!"qqqq"))) (.int 6))) (.bin .mul (.int 4) (.idx (.var n!"C") (.bin .add (.str n!"3") (.var n!"qqqq"))))) (.bin .div (.bin .mul (.int 2) (.idx (.var n!"C") (.bin .add (.str n!"4") (.var n!"qqqq")))) (.int 3))),
        (.bin .add (.bin .add (.str n!"F") (.var n!"qqqq")) (.str n!"3p")) : (.bin .sub (.bin .add (.bin .sub (.idx (.var n!"C") (.bin .add (.str n!"1p") (.var n!"qqqq"))) (.bin .div (.idx (.var n!"C") (.bin .add (.str n!"2p") (.var n!"qqqq"))) (.int 6))) (.bin .mul (.int 4) (.idx (.var n!"C") (.bin .add (.str n!"3p") (.var n!"qqqq"))))) (.bin .div (.bin .mul (.int 2) (.idx (.var n!"C") (.bin .add (.str n!"4p") (.var n!"qqqq")))) (.int 3))),
        (.bin .add (.bin .add (.str n!"F") (.var n!"qqqq")) (.str n!"4")) : (.bin .add (.bin .div (.idx (.var n!"C") (.bin .add (.str n!"2") (.var n!"qqqq"))) (.int 2)) (.bin .mul (.int 2) (.idx (.var n!"C") (.bin .add (.str n!"4") (.var n!"qqqq"))))),
        (.bin .add (.bin .add (.str n!"F") (.var n!"qqqq")) (.str n!"4p")) : (.bin .add (.bin .div (.idx (.var n!"C") (.bin .add (.str n!"2p") (.var n!"qqqq"))) (.int 2)) (.bin .mul (.int 2) (.idx (.var n!"C") (.bin .add (.str n!"4p") (.var n!"qqqq"))))),
        (.bin .add (.bin .add (.str n!"F") (.var n!"qqqq")) (.str n!"5")) : (.bin .add (.bin .sub (.bin .add (.neg (.bin .div (.bin .mul (.int 32) (.idx (.var n!"C") (.bin .add (.str n!"10") (.var n!"qqqq")))) (.int 3))) (.idx (.var n!"C") (.bin .add (.str n!"5") (.var n!"qqqq")))) (.bin .div (.idx (.var n!"C") (.bin .add (.str n!"6") (.var n!"qqqq"))) (.int 6))) (.bin .mul (.int 64) (.idx (.var n!"C") (.bin .add (.str n!"9") (.var n!"qqqq"))))),
        (.bin .add (.bin .add (.str n!"F") (.var n!"qqqq")) (.str n!"5p")) : (.bin .add (.bin .sub (.bin .add (.neg (.bin .div (.bin .mul (.int 32) (.idx (.var n!"C") (.bin .add (.str n!"10p") (.var n!"qqqq")))) (.int 3))) (.idx (.var n!"C") (.bin .add (.str n!"5p") (.var n!"qqqq")))) (.bin .div (.idx (.var n!"C") (.bin .add (.str n!"6p") (.var n!"qqqq"))) (.int 6))) (.bin .mul (.int 64) (.idx (.var n!"C") (.bin .add (.str n!"9p") (.var n!"qqqq"))))),
        (.bin .add (.bin .add (.str n!"F") (.var n!"qqqq")) (.str n!"6")) : (.bin .add (.bin .mul (.int 32) (.idx (.var n!"C") (.bin .add (.str n!"10") (.var n!"qqqq")))) (.bin .div (.idx (.var n!"C") (.bin .add (.str n!"6") (.var n!"qqqq"))) (.int 2))),
        (.bin .add (.bin .add (.str n!"F") (.var n!"qqqq")) (.str n!"6p")) : (.bin .add (.bin .mul (.int 32) (.idx (.var n!"C") (.bin .add (.str n!"10p") (.var n!"qqqq")))) (.bin .div (.idx (.var n!"C") (.bin .add (.str n!"6p") (.var n!"qqqq"))) (.int 2))),
        (.bin .add (.bin .add (.str n!"F") (.var n!"qqqq")) (.str n!"7")) : (.bin .add (.bin .sub (.bin .add (.neg (.bin .div (.bin .mul (.int 8) (.idx (.var n!"C") (.bin .add (.str n!"10") (.var n!"qqqq")))) (.int 3))) (.idx (.var n!"C") (.bin .add (.str n!"5") (.var n!"qqqq")))) (.bin .div (.idx (.var n!"C") (.bin .add (.str n!"6") (.var n!"qqqq"))) (.int 6))) (.bin .mul (.int 16) (.idx (.var n!"C") (.bin .add (.str n!"9") (.var n!"qqqq"))))),
        (.bin .add (.bin .add (.str n!"F") (.var n!"qqqq")) (.str n!"7p")) : (.bin .add (.bin .sub (.bin .add (.neg (.bin .div (.bin .mul (.int 8) (.idx (.var n!"C") (.bin .add (.str n!"10p") (.var n!"qqqq")))) (.int 3))) (.idx (.var n!"C") (.bin .add (.str n!"5p") (.var n!"qqqq")))) (.bin .div (.idx (.var n!"C") (.bin .add (.str n!"6p") (.var n!"qqqq"))) (.int 6))) (.bin .mul (.int 16) (.idx (.var n!"C") (.bin .add (.str n!"9p") (.var n!"qqqq"))))),
        (.bin .add (.bin .add (.str n!"F") (.var n!"qqqq")) (.str n!"8")) : (.bin .add (.bin .mul (.int 8) (.idx (.var n!"C") (.bin .add (.str n!"10") (.var n!"qqqq")))) (.bin .div (.idx (.var n!"C") (.bin .add (.str n!"6") (.var n!"qqqq"))) (.int 2))),
        (.bin .add (.bin .add (.str n!"F") (.var n!"qqqq")) (.str n!"8p")) : (.bin .add (.bin .mul (.int 8) (.idx (.var n!"C") (.bin .add (.str n!"10p") (.var n!"qqqq")))) (.bin .div (.idx (.var n!"C") (.bin .add (.str n!"6p") (.var n!"qqqq"))) (.int 2))),
        (.bin .add (.bin .add (.str n!"F") (.var n!"qqqq")) (.str n!"9")) : (.bin .sub (.bin .sub (.bin .add (.bin .div (.bin .mul (.int 8) (.idx (.var n!"C") (.bin .add (.str n!"10") (.var n!"qqqq")))) (.int 3)) (.idx (.var n!"C") (.bin .add (.str n!"7") (.var n!"qqqq")))) (.bin .div (.idx (.var n!"C") (.bin .add (.str n!"8") (.var n!"qqqq"))) (.int 6))) (.bin .mul (.int 16) (.idx (.var n!"C") (.bin .add (.str n!"9") (.var n!"qqqq"))))),
        (.bin .add (.bin .add (.str n!"F") (.var n!"qqqq")) (.str n!"9p")) : (.bin .sub (.bin .sub (.bin .add (.bin .div (.bin .mul (.int 8) (.idx (.var n!"C") (.bin .add (.str n!"10p") (.var n!"qqqq")))) (.int 3)) (.idx (.var n!"C") (.bin .add (.str n!"7p") (.var n!"qqqq")))) (.bin .div (.idx (.var n!"C") (.bin .add (.str n!"8p") (.var n!"qqqq"))) (.int 6))) (.bin .mul (.int 16) (.idx (.var n!"C") (.bin .add (.str n!"9p") (.var n!"qqqq")))))])] st![],
    .raise]⟩

/-- wet.py:799-872 `_Fierz_to_EOS_III` -/
def fn_Fierz_to_EOS_III : Fn := ⟨n!"_Fierz_to_EOS_III", [n!"Fqqqq", n!"qqqq", n!"p"],
  st![.assign n!"pf" (.bin .div (.bin .div (.call n!"sqrt" es![(.flt 2 1)]) (.flt 4 1)) (.idx (.var n!"p") (.str n!"GF"))),
    .assign n!"V" (.call n!"ckmutil.ckm.ckm_tree" es![(.idx (.var n!"p") (.str n!"Vus")), (.idx (.var n!"p") (.str n!"Vub")), (.idx (.var n!"p") (.str n!"Vcb")), (.idx (.var n!"p") (.str n!"gamma"))]),
    .assign n!"d1" (.idx (.var n!"dflav") (.idx (.var n!"qqqq") (.int 0))),
    .assign n!"d2" (.idx (.var n!"dflav") (.idx (.var n!"qqqq") (.int 1))),
    .assign n!"u1" (.idx (.var n!"uflav") (.idx (.var n!"qqqq") (.int 2))),
    .assign n!"u2" (.idx (.var n!"uflav") (.idx (.var n!"qqqq") (.int 3))),
    .ite (.bin .isin (.var n!"qqqq") (.list es![(.str n!"sbcu"), (.str n!"dbcu")])) st![.assign n!"pf_ckm" (.bin .div (.var n!"pf") (.bin .mul (.idx (.var n!"V") (.list es![(.var n!"u1"), (.var n!"d2")])) (.meth (.idx (.var n!"V") (.list es![(.var n!"u2"), (.var n!"d1")])) n!"conj" es![]))),
      .assign n!"d" (.dict kv![
        (.bin .add (.var n!"qqqq") (.str n!"::c1")) : (.bin .add (.bin .sub (.bin .add (.bin .div (.neg (.idx (.var n!"Fqqqq") (.bin .add (.bin .add (.str n!"F") (.var n!"qqqq")) (.str n!"1")))) (.int 3)) (.bin .div (.bin .mul (.int 4) (.idx (.var n!"Fqqqq") (.bin .add (.bin .add (.str n!"F") (.var n!"qqqq")) (.str n!"3")))) (.int 3))) (.bin .div (.idx (.var n!"Fqqqq") (.bin .add (.bin .add (.str n!"F") (.var n!"qqqq")) (.str n!"2"))) (.bin .mul (.int 3) (.var n!"Nc")))) (.bin .div (.bin .mul (.int 4) (.idx (.var n!"Fqqqq") (.bin .add (.bin .add (.str n!"F") (.var n!"qqqq")) (.str n!"4")))) (.bin .mul (.int 3) (.var n!"Nc")))),
        (.bin .add (.var n!"qqqq") (.str n!"::c2")) : (.bin .add (.bin .div (.bin .mul (.neg (.int 2)) (.idx (.var n!"Fqqqq") (.bin .add (.bin .add (.str n!"F") (.var n!"qqqq")) (.str n!"2")))) (.int 3)) (.bin .div (.bin .mul (.int 8) (.idx (.var n!"Fqqqq") (.bin .add (.bin .add (.str n!"F") (.var n!"qqqq")) (.str n!"4")))) (.int 3))),
        (.bin .add (.var n!"qqqq") (.str n!"::c3")) : (.bin .sub (.bin .add (.bin .sub (.bin .div (.idx (.var n!"Fqqqq") (.bin .add (.bin .add (.str n!"F") (.var n!"qqqq")) (.str n!"1"))) (.int 12)) (.bin .div (.idx (.var n!"Fqqqq") (.bin .add (.bin .add (.str n!"F") (.var n!"qqqq")) (.str n!"3"))) (.int 12))) (.bin .div (.idx (.var n!"Fqqqq") (.bin .add (.bin .add (.str n!"F") (.var n!"qqqq")) (.str n!"2"))) (.bin .mul (.int 12) (.var n!"Nc")))) (.bin .div (.idx (.var n!"Fqqqq") (.bin .add (.bin .add (.str n!"F") (.var n!"qqqq")) (.str n!"4"))) (.bin .mul (.int 12) (.var n!"Nc")))),
        (.bin .add (.var n!"qqqq") (.str n!"::c4")) : (.bin .sub (.bin .div (.idx (.var n!"Fqqqq") (.bin .add (.bin .add (.str n!"F") (.var n!"qqqq")) (.str n!"2"))) (.int 6)) (.bin .div (.idx (.var n!"Fqqqq") (.bin .add (.bin .add (.str n!"F") (.var n!"qqqq")) (.str n!"4"))) (.int 6))),
        (.bin .add (.var n!"qqqq") (.str n!"::c5")) : (.bin .add (.bin .sub (.bin .add (.bin .div (.neg (.idx (.var n!"Fqqqq") (.bin .add (.bin .add (.str n!"F") (.var n!"qqqq")) (.str n!"5")))) (.int 3)) (.bin .div (.bin .mul (.int 4) (.idx (.var n!"Fqqqq") (.bin .add (.bin .add (.str n!"F") (.var n!"qqqq")) (.str n!"7")))) (.int 3))) (.bin .div (.idx (.var n!"Fqqqq") (.bin .add (.bin .add (.str n!"F") (.var n!"qqqq")) (.str n!"6"))) (.bin .mul (.int 3) (.var n!"Nc")))) (.bin .div (.bin .mul (.int 4) (.idx (.var n!"Fqqqq") (.bin .add (.bin .add (.str n!"F") (.var n!"qqqq")) (.str n!"8")))) (.bin .mul (.int 3) (.var n!"Nc")))),
        (.bin .add (.var n!"qqqq") (.str n!"::c6")) : (.bin .add (.bin .div (.bin .mul (.neg (.int 2)) (.idx (.var n!"Fqqqq") (.bin .add (.bin .add (.str n!"F") (.var n!"qqqq")) (.str n!"6")))) (.int 3)) (.bin .div (.bin .mul (.int 8) (.idx (.var n!"Fqqqq") (.bin .add (.bin .add (.str n!"F") (.var n!"qqqq")) (.str n!"8")))) (.int 3))),
        (.bin .add (.var n!"qqqq") (.str n!"::c7")) : (.bin .sub (.bin .add (.bin .add (.bin .add (.bin .sub (.bin .div (.idx (.var n!"Fqqqq") (.bin .add (.bin .add (.str n!"F") (.var n!"qqqq")) (.str n!"5"))) (.int 3)) (.bin .div (.idx (.var n!"Fqqqq") (.bin .add (.bin .add (.str n!"F") (.var n!"qqqq")) (.str n!"7"))) (.int 3))) (.idx (.var n!"Fqqqq") (.bin .add (.bin .add (.str n!"F") (.var n!"qqqq")) (.str n!"9")))) (.bin .div (.idx (.var n!"Fqqqq") (.bin .add (.bin .add (.str n!"F") (.var n!"qqqq")) (.str n!"10"))) (.var n!"Nc"))) (.bin .div (.idx (.var n!"Fqqqq") (.bin .add (.bin .add (.str n!"F") (.var n!"qqqq")) (.str n!"6"))) (.bin .mul (.int 3) (.var n!"Nc")))) (.bin .div (.idx (.var n!"Fqqqq") (.bin .add (.bin .add (.str n!"F") (.var n!"qqqq")) (.str n!"8"))) (.bin .mul (.int 3) (.var n!"Nc")))),
        (.bin .add (.var n!"qqqq") (.str n!"::c8")) : (.bin .sub (.bin .add (.bin .mul (.int 2) (.idx (.var n!"Fqqqq") (.bin .add (.bin .add (.str n!"F") (.var n!"qqqq")) (.str n!"10")))) (.bin .div (.bin .mul (.int 2) (.idx (.var n!"Fqqqq") (.bin .add (.bin .add (.str n!"F") (.var n!"qqqq")) (.str n!"6")))) (.int 3))) (.bin .div (.bin .mul (.int 2) (.idx (.var n!"Fqqqq") (.bin .add (.bin .add (.str n!"F") (.var n!"qqqq")) (.str n!"8")))) (.int 3))),
        (.bin .add (.var n!"qqqq") (.str n!"::c9")) : (.bin .sub (.bin .add (.bin .sub (.bin .div (.idx (.var n!"Fqqqq") (.bin .add (.bin .add (.str n!"F") (.var n!"qqqq")) (.str n!"5"))) (.int 48)) (.bin .div (.idx (.var n!"Fqqqq") (.bin .add (.bin .add (.str n!"F") (.var n!"qqqq")) (.str n!"7"))) (.int 48))) (.bin .div (.idx (.var n!"Fqqqq") (.bin .add (.bin .add (.str n!"F") (.var n!"qqqq")) (.str n!"6"))) (.bin .mul (.int 48) (.var n!"Nc")))) (.bin .div (.idx (.var n!"Fqqqq") (.bin .add (.bin .add (.str n!"F") (.var n!"qqqq")) (.str n!"8"))) (.bin .mul (.int 48) (.var n!"Nc")))),
        (.bin .add (.var n!"qqqq") (.str n!"::c10")) : (.bin .sub (.bin .div (.idx (.var n!"Fqqqq") (.bin .add (.bin .add (.str n!"F") (.var n!"qqqq")) (.str n!"6"))) (.int 24)) (.bin .div (.idx (.var n!"Fqqqq") (.bin .add (.bin .add (.str n!"F") (.var n!"qqqq")) (.str n!"8"))) (.int 24))),
        (.bin .add (.var n!"qqqq") (.str n!"::c1'")) : (.bin .add (.bin .sub (.bin .add (.bin .div (.neg (.idx (.var n!"Fqqqq") (.bin .add (.bin .add (.str n!"F") (.var n!"qqqq")) (.str n!"1p")))) (.int 3)) (.bin .div (.bin .mul (.int 4) (.idx (.var n!"Fqqqq") (.bin .add (.bin .add (.str n!"F") (.var n!"qqqq")) (.str n!"3p")))) (.int 3))) (.bin .div (.idx (.var n!"Fqqqq") (.bin .add (.bin .add (.str n!"F") (.var n!"qqqq")) (.str n!"2p"))) (.bin .mul (.int 3) (.var n!"Nc")))) (.bin .div (.bin .mul (.int 4) (.idx (.var n!"Fqqqq") (.bin .add (.bin .add (.str n!"F") (.var n!"qqqq")) (.str n!"4p")))) (.bin .mul (.int 3) (.var n!"Nc")))),
        (.bin .add (.var n!"qqqq") (.str n!"::c2'")) : (.bin .add (.bin .div (.bin .mul (.neg (.int 2)) (.idx (.var n!"Fqqqq") (.bin .add (.bin .add (.str n!"F") (.var n!"qqqq")) (.str n!"2p")))) (.int 3)) (.bin .div (.bin .mul (.int 8) (.idx (.var n!"Fqqqq") (.bin .add (.bin .add (.str n!"F") (.var n!"qqqq")) (.str n!"4p")))) (.int 3))),
        (.bin .add (.var n!"qqqq") (.str n!"::c3'")) : (.bin .sub (.bin .add (.bin .sub (.bin .div (.idx (.var n!"Fqqqq") (.bin .add (.bin .add (.str n!"F") (.var n!"qqqq")) (.str n!"1p"))) (.int 12)) (.bin .div (.idx (.var n!"Fqqqq") (.bin .add (.bin .add (.str n!"F") (.var n!"qqqq")) (.str n!"3p"))) (.int 12))) (.bin .div (.idx (.var n!"Fqqqq") (.bin .add (.bin .add (.str n!"F") (.var n!"qqqq")) (.str n!"2p"))) (.bin .mul (.int 12) (.var n!"Nc")))) (.bin .div (.idx (.var n!"Fqqqq") (.bin .add (.bin .add (.str n!"F") (.var n!"qqqq")) (.str n!"4p"))) (.bin .mul (.int 12) (.var n!"Nc")))),
        (.bin .add (.var n!"qqqq") (.str n!"::c4'")) : (.bin .sub (.bin .div (.idx (.var n!"Fqqqq") (.bin .add (.bin .add (.str n!"F") (.var n!"qqqq")) (.str n!"2p"))) (.int 6)) (.bin .div (.idx (.var n!"Fqqqq") (.bin .add (.bin .add (.str n!"F") (.var n!"qqqq")) (.str n!"4p"))) (.int 6))),
        (.bin .add (.var n!"qqqq") (.str n!"::c5'")) : (.bin .add (.bin .sub (.bin .add (.bin .div (.neg (.idx (.var n!"Fqqqq") (.bin .add (.bin .add (.str n!"F") (.var n!"qqqq")) (.str n!"5p")))) (.int 3)) (.bin .div (.bin .mul (.int 4) (.idx (.var n!"Fqqqq") (.bin .add (.bin .add (.str n!"F") (.var n!"qqqq")) (.str n!"7p")))) (.int 3))) (.bin .div (.idx (.var n!"Fqqqq") (.bin .add (.bin .add (.str n!"F") (.var n!"qqqq")) (.str n!"6p"))) (.bin .mul (.int 3) (.var n!"Nc")))) (.bin .div (.bin .mul (.int 4) (.idx (.var n!"Fqqqq") (.bin .add (.bin .add (.str n!"F") (.var n!"qqqq")) (.str n!"8p")))) (.bin .mul (.int 3) (.var n!"Nc")))),
        (.bin .add (.var n!"qqqq") (.str n!"::c6'")) : (.bin .add (.bin .div (.bin .mul (.neg (.int 2)) (.idx (.var n!"Fqqqq") (.bin .add (.bin .add (.str n!"F") (.var n!"qqqq")) (.str n!"6p")))) (.int 3)) (.bin .div (.bin .mul (.int 8) (.idx (.var n!"Fqqqq") (.bin .add (.bin .add (.str n!"F") (.var n!"qqqq")) (.str n!"8p")))) (.int 3))),
        (.bin .add (.var n!"qqqq") (.str n!"::c7'")) : (.bin .sub (.bin .add (.bin .add (.bin .add (.bin .sub (.bin .div (.idx (.var n!"Fqqqq") (.bin .add (.bin .add (.str n!"F") (.var n!"qqqq")) (.str n!"5p"))) (.int 3)) (.bin .div (.idx (.var n!"Fqqqq") (.bin .add (.bin .add (.str n!"F") (.var n!"qqqq")) (.str n!"7p"))) (.int 3))) (.idx (.var n!"Fqqqq") (.bin .add (.bin .add (.str n!"F") (.var n!"qqqq")) (.str n!"9p")))) (.bin .div (.idx (.var n!"Fqqqq") (.bin .add (.bin .add (.str n!"F") (.var n!"qqqq")) (.str n!"10p"))) (.var n!"Nc"))) (.bin .div (.idx (.var n!"Fqqqq") (.bin .add (.bin .add (.str n!"F") (.var n!"qqqq")) (.str n!"6p"))) (.bin .mul (.int 3) (.var n!"Nc")))) (.bin .div (.idx (.var n!"Fqqqq") (.bin .add (.bin .add (.str n!"F") (.var n!"qqqq")) (.str n!"8p"))) (.bin .mul (.int 3) (.var n!"Nc")))),
        (.bin .add (.var n!"qqqq") (.str n!"::c8'")) : (.bin .sub (.bin .add (.bin .mul (.int 2) (.idx (.var n!"Fqqqq") (.bin .add (.bin .add (.str n!"F") (.var n!"qqqq")) (.str n!"10p")))) (.bin .div (.bin .mul (.int 2) (.idx (.var n!"Fqqqq") (.bin .add (.bin .add (.str n!"F") (.var n!"qqqq")) (.str n!"6p")))) (.int 3))) (.bin .div (.bin .mul (.int 2) (.idx (.var n!"Fqqqq") (.bin .add (.bin .add (.str n!"F") (.var n!"qqqq")) (.str n!"8p")))) (.int 3))),
        (.bin .add (.var n!"qqqq") (.str n!"::c9'")) : (.bin .sub (.bin .add (.bin .sub (.bin .div (.idx (.var n!"Fqqqq") (.bin .add (.bin .add (.str n!"F") (.var n!"qqqq")) (.str n!"5p"))) (.int 48)) (.bin .div (.idx (.var n!"Fqqqq") (.bin .add (.bin .add (.str n!"F") (.var n!"qqqq")) (.str n!"7p"))) (.int 48))) (.bin .div (.idx (.var n!"Fqqqq") (.bin .add (.bin .add (.str n!"F") (.var n!"qqqq")) (.str n!"6p"))) (.bin .mul (.int 48) (.var n!"Nc")))) (.bin .div (.idx (.var n!"Fqqqq") (.bin .add (.bin .add (.str n!"F") (.var n!"qqqq")) (.str n!"8p"))) (.bin .mul (.int 48) (.var n!"Nc")))),
        (.bin .add (.var n!"qqqq") (.str n!"::c10'")) : (.bin .sub (.bin .div (.idx (.var n!"Fqqqq") (.bin .add (.bin .add (.str n!"F") (.var n!"qqqq")) (.str n!"6p"))) (.int 24)) (.bin .div (.idx (.var n!"Fqqqq") (.bin .add (.bin .add (.str n!"F") (.var n!"qqqq")) (.str n!"8p"))) (.int 24)))]),
      .ret (.dcomp n!"k" n!"v" (.var n!"d") (.var n!"k") (.bin .mul (.var n!"v") (.var n!"pf_ckm")))] st![],
    .raise]⟩

/-- wet.py:874-926 `_Fierz_to_Flavio_V` -/
def fn_Fierz_to_Flavio_V : Fn := ⟨n!"_Fierz_to_Flavio_V", [n!"Fqqqq", n!"qqqq", n!"parameters"],
  st![.assign n!"p" (.var n!"parameters"),
    .assign n!"V" (.call n!"ckmutil.ckm.ckm_tree" es![(.idx (.var n!"p") (.str n!"Vus")), (.idx (.var n!"p") (.str n!"Vub")), (.idx (.var n!"p") (.str n!"Vcb")), (.idx (.var n!"p") (.str n!"gamma"))]),
    .ite (.bin .eq (.slice (.var n!"qqqq") .none (.int 2)) (.str n!"sb")) st![.assign n!"xi" (.bin .mul (.idx (.var n!"V") (.list es![(.int 2), (.int 2)])) (.meth (.idx (.var n!"V") (.list es![(.int 2), (.int 1)])) n!"conj" es![]))] st![.ite (.bin .eq (.slice (.var n!"qqqq") .none (.int 2)) (.str n!"db")) st![.assign n!"xi" (.bin .mul (.idx (.var n!"V") (.list es![(.int 2), (.int 2)])) (.meth (.idx (.var n!"V") (.list es![(.int 2), (.int 0)])) n!"conj" es![]))] st![.ite (.bin .eq (.slice (.var n!"qqqq") .none (.int 2)) (.str n!"ds")) st![.assign n!"xi" (.bin .mul (.idx (.var n!"V") (.list es![(.int 2), (.int 1)])) (.meth (.idx (.var n!"V") (.list es![(.int 2), (.int 0)])) n!"conj" es![]))] st![.ite (.bin .eq (.slice (.var n!"qqqq") .none (.int 2)) (.str n!"uc")) st![.assign n!"xi" (.bin .mul (.meth (.idx (.var n!"V") (.list es![(.int 1), (.int 2)])) n!"conj" es![]) (.idx (.var n!"V") (.list es![(.int 0), (.int 2)])))] st![.raise]]]],
    .assign n!"pf" (.bin .div (.bin .div (.bin .div (.call n!"sqrt" es![(.int 2)]) (.idx (.var n!"p") (.str n!"GF"))) (.var n!"xi")) (.int 4)),
    .assign n!"qqqq_fl" (.bin .add (.bin .add (.idx (.var n!"qqqq") (.int 1)) (.idx (.var n!"qqqq") (.int 0))) (.slice (.var n!"qqqq") (.int 2) .none)),
    .ite (.bin .isin (.var n!"qqqq") (.list es![(.str n!"dsss"), (.str n!"dsdd"), (.str n!"dbbb"), (.str n!"dbdd"), (.str n!"sbss"), (.str n!"sbbb"), (.str n!"ucuu"), (.str n!"uccc")])) st![.ret (.dict kv![
        (.bin .add (.str n!"CVLL_") (.var n!"qqqq_fl")) : (.bin .mul (.var n!"pf") (.idx (.var n!"Fqqqq") (.bin .add (.bin .add (.str n!"F") (.var n!"qqqq")) (.str n!"1")))),
        (.bin .add (.str n!"CVLR_") (.var n!"qqqq_fl")) : (.bin .mul (.var n!"pf") (.idx (.var n!"Fqqqq") (.bin .add (.bin .add (.str n!"F") (.var n!"qqqq")) (.str n!"3")))),
        (.bin .add (.str n!"CSRR_") (.var n!"qqqq_fl")) : (.bin .mul (.var n!"pf") (.idx (.var n!"Fqqqq") (.bin .add (.bin .add (.str n!"F") (.var n!"qqqq")) (.str n!"5")))),
        (.bin .add (.str n!"CSRL_") (.var n!"qqqq_fl")) : (.bin .mul (.var n!"pf") (.idx (.var n!"Fqqqq") (.bin .add (.bin .add (.str n!"F") (.var n!"qqqq")) (.str n!"7")))),
        (.bin .add (.str n!"CTRR_") (.var n!"qqqq_fl")) : (.bin .mul (.var n!"pf") (.idx (.var n!"Fqqqq") (.bin .add (.bin .add (.str n!"F") (.var n!"qqqq")) (.str n!"9")))),
        (.bin .add (.str n!"CVRR_") (.var n!"qqqq_fl")) : (.bin .mul (.var n!"pf") (.idx (.var n!"Fqqqq") (.bin .add (.bin .add (.str n!"F") (.var n!"qqqq")) (.str n!"1p")))),
        (.bin .add (.str n!"CVRL_") (.var n!"qqqq_fl")) : (.bin .mul (.var n!"pf") (.idx (.var n!"Fqqqq") (.bin .add (.bin .add (.str n!"F") (.var n!"qqqq")) (.str n!"3p")))),
        (.bin .add (.str n!"CSLL_") (.var n!"qqqq_fl")) : (.bin .mul (.var n!"pf") (.idx (.var n!"Fqqqq") (.bin .add (.bin .add (.str n!"F") (.var n!"qqqq")) (.str n!"5p")))),
        (.bin .add (.str n!"CSLR_") (.var n!"qqqq_fl")) : (.bin .mul (.var n!"pf") (.idx (.var n!"Fqqqq") (.bin .add (.bin .add (.str n!"F") (.var n!"qqqq")) (.str n!"7p")))),
        (.bin .add (.str n!"CTLL_") (.var n!"qqqq_fl")) : (.bin .mul (.var n!"pf") (.idx (.var n!"Fqqqq") (.bin .add (.bin .add (.str n!"F") (.var n!"qqqq")) (.str n!"9p"))))])] st![.ite (.bin .isin (.var n!"qqqq") (.list es![(.str n!"dsuu"), (.str n!"dscc"), (.str n!"dsbb"), (.str n!"dbuu"), (.str n!"dbcc"), (.str n!"dbss"), (.str n!"sbuu"), (.str n!"sbcc"), (.str n!"sbdd"), (.str n!"ucdd"), (.str n!"ucss"), (.str n!"ucbb")])) st![.ret (.dict kv![
        (.bin .add (.str n!"CVLL_") (.var n!"qqqq_fl")) : (.bin .mul (.var n!"pf") (.idx (.var n!"Fqqqq") (.bin .add (.bin .add (.str n!"F") (.var n!"qqqq")) (.str n!"1")))),
        (.bin .add (.str n!"CVLLt_") (.var n!"qqqq_fl")) : (.bin .mul (.var n!"pf") (.idx (.var n!"Fqqqq") (.bin .add (.bin .add (.str n!"F") (.var n!"qqqq")) (.str n!"2")))),
        (.bin .add (.str n!"CVLR_") (.var n!"qqqq_fl")) : (.bin .mul (.var n!"pf") (.idx (.var n!"Fqqqq") (.bin .add (.bin .add (.str n!"F") (.var n!"qqqq")) (.str n!"3")))),
        (.bin .add (.str n!"CVLRt_") (.var n!"qqqq_fl")) : (.bin .mul (.var n!"pf") (.idx (.var n!"Fqqqq") (.bin .add (.bin .add (.str n!"F") (.var n!"qqqq")) (.str n!"4")))),
        (.bin .add (.str n!"CSRR_") (.var n!"qqqq_fl")) : (.bin .mul (.var n!"pf") (.idx (.var n!"Fqqqq") (.bin .add (.bin .add (.str n!"F") (.var n!"qqqq")) (.str n!"5")))),
        (.bin .add (.str n!"CSRRt_") (.var n!"qqqq_fl")) : (.bin .mul (.var n!"pf") (.idx (.var n!"Fqqqq") (.bin .add (.bin .add (.str n!"F") (.var n!"qqqq")) (.str n!"6")))),
        (.bin .add (.str n!"CSRL_") (.var n!"qqqq_fl")) : (.bin .mul (.var n!"pf") (.idx (.var n!"Fqqqq") (.bin .add (.bin .add (.str n!"F") (.var n!"qqqq")) (.str n!"7")))),
        (.bin .add (.str n!"CSRLt_") (.var n!"qqqq_fl")) : (.bin .mul (.var n!"pf") (.idx (.var n!"Fqqqq") (.bin .add (.bin .add (.str n!"F") (.var n!"qqqq")) (.str n!"8")))),
        (.bin .add (.str n!"CTRR_") (.var n!"qqqq_fl")) : (.bin .mul (.var n!"pf") (.idx (.var n!"Fqqqq") (.bin .add (.bin .add (.str n!"F") (.var n!"qqqq")) (.str n!"9")))),
        (.bin .add (.str n!"CTRRt_") (.var n!"qqqq_fl")) : (.bin .mul (.var n!"pf") (.idx (.var n!"Fqqqq") (.bin .add (.bin .add (.str n!"F") (.var n!"qqqq")) (.str n!"10")))),
        (.bin .add (.str n!"CVRR_") (.var n!"qqqq_fl")) : (.bin .mul (.var n!"pf") (.idx (.var n!"Fqqqq") (.bin .add (.bin .add (.str n!"F") (.var n!"qqqq")) (.str n!"1p")))),
        (.bin .add (.str n!"CVRRt_") (.var n!"qqqq_fl")) : (.bin .mul (.var n!"pf") (.idx (.var n!"Fqqqq") (.bin .add (.bin .add (.str n!"F") (.var n!"qqqq")) (.str n!"2p")))),
        (.bin .add (.str n!"CVRL_") (.var n!"qqqq_fl")) : (.bin .mul (.var n!"pf") (.idx (.var n!"Fqqqq") (.bin .add (.bin .add (.str n!"F") (.var n!"qqqq")) (.str n!"3p")))),
        (.bin .add (.str n!"CVRLt_") (.var n!"qqqq_fl")) : (.bin .mul (.var n!"pf") (.idx (.var n!"Fqqqq") (.bin .add (.bin .add (.str n!"F") (.var n!"qqqq")) (.str n!"4p")))),
        (.bin .add (.str n!"CSLL_") (.var n!"qqqq_fl")) : (.bin .mul (.var n!"pf") (.idx (.var n!"Fqqqq") (.bin .add (.bin .add (.str n!"F") (.var n!"qqqq")) (.str n!"5p")))),
        (.bin .add (.str n!"CSLLt_") (.var n!"qqqq_fl")) : (.bin .mul (.var n!"pf") (.idx (.var n!"Fqqqq") (.bin .add (.bin .add (.str n!"F") (.var n!"qqqq")) (.str n!"6p")))),
        (.bin .add (.str n!"CSLR_") (.var n!"qqqq_fl")) : (.bin .mul (.var n!"pf") (.idx (.var n!"Fqqqq") (.bin .add (.bin .add (.str n!"F") (.var n!"qqqq")) (.str n!"7p")))),
        (.bin .add (.str n!"CSLRt_") (.var n!"qqqq_fl")) : (.bin .mul (.var n!"pf") (.idx (.var n!"Fqqqq") (.bin .add (.bin .add (.str n!"F") (.var n!"qqqq")) (.str n!"8p")))),
        (.bin .add (.str n!"CTLL_") (.var n!"qqqq_fl")) : (.bin .mul (.var n!"pf") (.idx (.var n!"Fqqqq") (.bin .add (.bin .add (.str n!"F") (.var n!"qqqq")) (.str n!"9p")))),
        (.bin .add (.str n!"CTLLt_") (.var n!"qqqq_fl")) : (.bin .mul (.var n!"pf") (.idx (.var n!"Fqqqq") (.bin .add (.bin .add (.str n!"F") (.var n!"qqqq")) (.str n!"10p"))))])] st![.raise]]]⟩

/-- wet.py:929-981 `_Flavio_to_Fierz_V` -/
def fn_Flavio_to_Fierz_V : Fn := ⟨n!"_Flavio_to_Fierz_V", [n!"Cqqqq", n!"qqqq", n!"parameters"],
  st![.assign n!"p" (.var n!"parameters"),
    .assign n!"V" (.call n!"ckmutil.ckm.ckm_tree" es![(.idx (.var n!"p") (.str n!"Vus")), (.idx (.var n!"p") (.str n!"Vub")), (.idx (.var n!"p") (.str n!"Vcb")), (.idx (.var n!"p") (.str n!"gamma"))]),
    .ite (.bin .eq (.slice (.var n!"qqqq") .none (.int 2)) (.str n!"sb")) st![.assign n!"xi" (.bin .mul (.idx (.var n!"V") (.list es![(.int 2), (.int 2)])) (.meth (.idx (.var n!"V") (.list es![(.int 2), (.int 1)])) n!"conj" es![]))] st![.ite (.bin .eq (.slice (.var n!"qqqq") .none (.int 2)) (.str n!"db")) st![.assign n!"xi" (.bin .mul (.idx (.var n!"V") (.list es![(.int 2), (.int 2)])) (.meth (.idx (.var n!"V") (.list es![(.int 2), (.int 0)])) n!"conj" es![]))] st![.ite (.bin .eq (.slice (.var n!"qqqq") .none (.int 2)) (.str n!"ds")) st![.assign n!"xi" (.bin .mul (.idx (.var n!"V") (.list es![(.int 2), (.int 1)])) (.meth (.idx (.var n!"V") (.list es![(.int 2), (.int 0)])) n!"conj" es![]))] st![.ite (.bin .eq (.slice (.var n!"qqqq") .none (.int 2)) (.str n!"uc")) st![.assign n!"xi" (.bin .mul (.meth (.idx (.var n!"V") (.list es![(.int 1), (.int 2)])) n!"conj" es![]) (.idx (.var n!"V") (.list es![(.int 0), (.int 2)])))] st![.raise]]]],
    .assign n!"pf" (.bin .mul (.bin .div (.bin .mul (.int 4) (.idx (.var n!"p") (.str n!"GF"))) (.call n!"sqrt" es![(.int 2)])) (.var n!"xi")),
    .assign n!"qqqq_fl" (.bin .add (.bin .add (.idx (.var n!"qqqq") (.int 1)) (.idx (.var n!"qqqq") (.int 0))) (.slice (.var n!"qqqq") (.int 2) .none)),
    .ite (.bin .isin (.var n!"qqqq") (.list es![(.str n!"dsss"), (.str n!"dsdd"), (.str n!"dbbb"), (.str n!"dbdd"), (.str n!"sbss"), (.str n!"sbbb"), (.str n!"ucuu"), (.str n!"uccc")])) st![.ret (.dict kv![
        (.bin .add (.bin .add (.str n!"F") (.var n!"qqqq")) (.str n!"1")) : (.bin .mul (.var n!"pf") (.idx (.var n!"Cqqqq") (.bin .add (.str n!"CVLL_") (.var n!"qqqq_fl")))),
        (.bin .add (.bin .add (.str n!"F") (.var n!"qqqq")) (.str n!"3")) : (.bin .mul (.var n!"pf") (.idx (.var n!"Cqqqq") (.bin .add (.str n!"CVLR_") (.var n!"qqqq_fl")))),
        (.bin .add (.bin .add (.str n!"F") (.var n!"qqqq")) (.str n!"5")) : (.bin .mul (.var n!"pf") (.idx (.var n!"Cqqqq") (.bin .add (.str n!"CSRR_") (.var n!"qqqq_fl")))),
        (.bin .add (.bin .add (.str n!"F") (.var n!"qqqq")) (.str n!"7")) : (.bin .mul (.var n!"pf") (.idx (.var n!"Cqqqq") (.bin .add (.str n!"CSRL_") (.var n!"qqqq_fl")))),
        (.bin .add (.bin .add (.str n!"F") (.var n!"qqqq")) (.str n!"9")) : (.bin .mul (.var n!"pf") (.idx (.var n!"Cqqqq") (.bin .add (.str n!"CTRR_") (.var n!"qqqq_fl")))),
        (.bin .add (.bin .add (.str n!"F") (.var n!"qqqq")) (.str n!"1p")) : (.bin .mul (.var n!"pf") (.idx (.var n!"Cqqqq") (.bin .add (.str n!"CVRR_") (.var n!"qqqq_fl")))),
        (.bin .add (.bin .add (.str n!"F") (.var n!"qqqq")) (.str n!"3p")) : (.bin .mul (.var n!"pf") (.idx (.var n!"Cqqqq") (.bin .add (.str n!"CVRL_") (.var n!"qqqq_fl")))),
        (.bin .add (.bin .add (.str n!"F") (.var n!"qqqq")) (.str n!"5p")) : (.bin .mul (.var n!"pf") (.idx (.var n!"Cqqqq") (.bin .add (.str n!"CSLL_") (.var n!"qqqq_fl")))),
        (.bin .add (.bin .add (.str n!"F") (.var n!"qqqq")) (.str n!"7p")) : (.bin .mul (.var n!"pf") (.idx (.var n!"Cqqqq") (.bin .add (.str n!"CSLR_") (.var n!"qqqq_fl")))),
        (.bin .add (.bin .add (.str n!"F") (.var n!"qqqq")) (.str n!"9p")) : (.bin .mul (.var n!"pf") (.idx (.var n!"Cqqqq") (.bin .add (.str n!"CTLL_") (.var n!"qqqq_fl"))))])] st![.ite (.bin .isin (.var n!"qqqq") (.list es![(.str n!"dsuu"), (.str n!"dscc"), (.str n!"dsbb"), (.str n!"dbuu"), (.str n!"dbcc"), (.str n!"dbss"), (.str n!"sbuu"), (.str n!"sbcc"), (.str n!"sbdd"), (.str n!"ucdd"), (.str n!"ucss"), (.str n!"ucbb")])) st![.ret (.dict kv![
        (.bin .add (.bin .add (.str n!"F") (.var n!"qqqq")) (.str n!"1")) : (.bin .mul (.var n!"pf") (.idx (.var n!"Cqqqq") (.bin .add (.str n!"CVLL_") (.var n!"qqqq_fl")))),
        (.bin .add (.bin .add (.str n!"F") (.var n!"qqqq")) (.str n!"2")) : (.bin .mul (.var n!"pf") (.idx (.var n!"Cqqqq") (.bin .add (.str n!"CVLLt_") (.var n!"qqqq_fl")))),
        (.bin .add (.bin .add (.str n!"F") (.var n!"qqqq")) (.str n!"3")) : (.bin .mul (.var n!"pf") (.idx (.var n!"Cqqqq") (.bin .add (.str n!"CVLR_") (.var n!"qqqq_fl")))),
        (.bin .add (.bin .add (.str n!"F") (.var n!"qqqq")) (.str n!"4")) : (.bin .mul (.var n!"pf") (.idx (.var n!"Cqqqq") (.bin .add (.str n!"CVLRt_") (.var n!"qqqq_fl")))),
        (.bin .add (.bin .add (.str n!"F") (.var n!"qqqq")) (.str n!"5")) : (.bin .mul (.var n!"pf") (.idx (.var n!"Cqqqq") (.bin .add (.str n!"CSRR_") (.var n!"qqqq_fl")))),
        (.bin .add (.bin .add (.str n!"F") (.var n!"qqqq")) (.str n!"6")) : (.bin .mul (.var n!"pf") (.idx (.var n!"Cqqqq") (.bin .add (.str n!"CSRRt_") (.var n!"qqqq_fl")))),
        (.bin .add (.bin .add (.str n!"F") (.var n!"qqqq")) (.str n!"7")) : (.bin .mul (.var n!"pf") (.idx (.var n!"Cqqqq") (.bin .add (.str n!"CSRL_") (.var n!"qqqq_fl")))),
        (.bin .add (.bin .add (.str n!"F") (.var n!"qqqq")) (.str n!"8")) : (.bin .mul (.var n!"pf") (.idx (.var n!"Cqqqq") (.bin .add (.str n!"CSRLt_") (.var n!"qqqq_fl")))),
        (.bin .add (.bin .add (.str n!"F") (.var n!"qqqq")) (.str n!"9")) : (.bin .mul (.var n!"pf") (.idx (.var n!"Cqqqq") (.bin .add (.str n!"CTRR_") (.var n!"qqqq_fl")))),
        (.bin .add (.bin .add (.str n!"F") (.var n!"qqqq")) (.str n!"10")) : (.bin .mul (.var n!"pf") (.idx (.var n!"Cqqqq") (.bin .add (.str n!"CTRRt_") (.var n!"qqqq_fl")))),
        (.bin .add (.bin .add (.str n!"F") (.var n!"qqqq")) (.str n!"1p")) : (.bin .mul (.var n!"pf") (.idx (.var n!"Cqqqq") (.bin .add (.str n!"CVRR_") (.var n!"qqqq_fl")))),
        (.bin .add (.bin .add (.str n!"F") (.var n!"qqqq")) (.str n!"2p")) : (.bin .mul (.var n!"pf") (.idx (.var n!"Cqqqq") (.bin .add (.str n!"CVRRt_") (.var n!"qqqq_fl")))),
        (.bin .add (.bin .add (.str n!"F") (.var n!"qqqq")) (.str n!"3p")) : (.bin .mul (.var n!"pf") (.idx (.var n!"Cqqqq") (.bin .add (.str n!"CVRL_") (.var n!"qqqq_fl")))),
        (.bin .add (.bin .add (.str n!"F") (.var n!"qqqq")) (.str n!"4p")) : (.bin .mul (.var n!"pf") (.idx (.var n!"Cqqqq") (.bin .add (.str n!"CVRLt_") (.var n!"qqqq_fl")))),
        (.bin .add (.bin .add (.str n!"F") (.var n!"qqqq")) (.str n!"5p")) : (.bin .mul (.var n!"pf") (.idx (.var n!"Cqqqq") (.bin .add (.str n!"CSLL_") (.var n!"qqqq_fl")))),
        (.bin .add (.bin .add (.str n!"F") (.var n!"qqqq")) (.str n!"6p")) : (.bin .mul (.var n!"pf") (.idx (.var n!"Cqqqq") (.bin .add (.str n!"CSLLt_") (.var n!"qqqq_fl")))),
        (.bin .add (.bin .add (.str n!"F") (.var n!"qqqq")) (.str n!"7p")) : (.bin .mul (.var n!"pf") (.idx (.var n!"Cqqqq") (.bin .add (.str n!"CSLR_") (.var n!"qqqq_fl")))),
        (.bin .add (.bin .add (.str n!"F") (.var n!"qqqq")) (.str n!"8p")) : (.bin .mul (.var n!"pf") (.idx (.var n!"Cqqqq") (.bin .add (.str n!"CSLRt_") (.var n!"qqqq_fl")))),
        (.bin .add (.bin .add (.str n!"F") (.var n!"qqqq")) (.str n!"9p")) : (.bin .mul (.var n!"pf") (.idx (.var n!"Cqqqq") (.bin .add (.str n!"CTLL_") (.var n!"qqqq_fl")))),
        (.bin .add (.bin .add (.str n!"F") (.var n!"qqqq")) (.str n!"10p")) : (.bin .mul (.var n!"pf") (.idx (.var n!"Cqqqq") (.bin .add (.str n!"CTLLt_") (.var n!"qqqq_fl"))))])] st![.raise]]]⟩

/-- wet.py:984-1048 `_Fierz_to_EOS_V` -/
def fn_Fierz_to_EOS_V : Fn := ⟨n!"_Fierz_to_EOS_V", [n!"Fsbuu", n!"Fsbdd", n!"Fsbcc", n!"Fsbss", n!"Fsbbb", n!"parameters"],
  st![.assign n!"p" (.var n!"parameters"),
    .assign n!"V" (.call n!"ckmutil.ckm.ckm_tree" es![(.idx (.var n!"p") (.str n!"Vus")), (.idx (.var n!"p") (.str n!"Vub")), (.idx (.var n!"p") (.str n!"Vcb")), (.idx (.var n!"p") (.str n!"gamma"))]),
    .assign n!"Vtb" (.idx (.var n!"V") (.list es![(.int 2), (.int 2)])),
    .assign n!"Vts" (.idx (.var n!"V") (.list es![(.int 2), (.int 1)])),
    .assign n!"c1" (.bin .add (.bin .sub (.bin .sub (.bin .add (.bin .sub (.bin .add (.bin .div (.neg (.idx (.var n!"Fsbbb") (.str n!"Fsbbb1"))) (.int 3)) (.bin .mul (.int 2) (.idx (.var n!"Fsbcc") (.str n!"Fsbcc1")))) (.bin .div (.bin .mul (.int 2) (.idx (.var n!"Fsbdd") (.str n!"Fsbdd1"))) (.int 3))) (.bin .div (.idx (.var n!"Fsbdd") (.str n!"Fsbdd2")) (.int 3))) (.bin .div (.idx (.var n!"Fsbss") (.str n!"Fsbss1")) (.int 3))) (.bin .div (.bin .mul (.int 2) (.idx (.var n!"Fsbuu") (.str n!"Fsbuu1"))) (.int 3))) (.bin .div (.idx (.var n!"Fsbuu") (.str n!"Fsbuu2")) (.int 3))),
    .assign n!"c2" (.bin .sub (.bin .add (.bin .sub (.bin .sub (.bin .add (.bin .add (.bin .add (.bin .div (.bin .mul (.neg (.int 2)) (.idx (.var n!"Fsbbb") (.str n!"Fsbbb1"))) (.int 9)) (.bin .div (.idx (.var n!"Fsbcc") (.str n!"Fsbcc1")) (.int 3))) (.idx (.var n!"Fsbcc") (.str n!"Fsbcc2"))) (.bin .div (.idx (.var n!"Fsbdd") (.str n!"Fsbdd1")) (.int 18))) (.bin .div (.bin .mul (.int 5) (.idx (.var n!"Fsbdd") (.str n!"Fsbdd2"))) (.int 18))) (.bin .div (.bin .mul (.int 2) (.idx (.var n!"Fsbss") (.str n!"Fsbss1"))) (.int 9))) (.bin .div (.idx (.var n!"Fsbuu") (.str n!"Fsbuu1")) (.int 18))) (.bin .div (.bin .mul (.int 5) (.idx (.var n!"Fsbuu") (.str n!"Fsbuu2"))) (.int 18))),
    .assign n!"c3" (.bin .add (.bin .add (.bin .add (.bin .sub (.bin .add (.bin .add (.bin .sub (.bin .add (.bin .add (.bin .add (.bin .sub (.bin .add (.bin .add (.bin .add (.bin .add (.bin .div (.bin .mul (.neg (.int 2)) (.idx (.var n!"Fsbbb") (.str n!"Fsbbb1"))) (.int 27)) (.bin .div (.bin .mul (.int 4) (.idx (.var n!"Fsbbb") (.str n!"Fsbbb3"))) (.int 15))) (.bin .div (.bin .mul (.int 4) (.idx (.var n!"Fsbbb") (.str n!"Fsbbb4"))) (.int 45))) (.bin .div (.bin .mul (.int 4) (.idx (.var n!"Fsbcc") (.str n!"Fsbcc3"))) (.int 15))) (.bin .div (.bin .mul (.int 4) (.idx (.var n!"Fsbcc") (.str n!"Fsbcc4"))) (.int 45))) (.bin .div (.bin .mul (.int 5) (.idx (.var n!"Fsbdd") (.str n!"Fsbdd1"))) (.int 54))) (.bin .div (.idx (.var n!"Fsbdd") (.str n!"Fsbdd2")) (.int 54))) (.bin .div (.bin .mul (.int 4) (.idx (.var n!"Fsbdd") (.str n!"Fsbdd3"))) (.int 15))) (.bin .div (.bin .mul (.int 4) (.idx (.var n!"Fsbdd") (.str n!"Fsbdd4"))) (.int 45))) (.bin .div (.bin .mul (.int 2) (.idx (.var n!"Fsbss") (.str n!"Fsbss1"))) (.int 27))) (.bin .div (.bin .mul (.int 4) (.idx (.var n!"Fsbss") (.str n!"Fsbss3"))) (.int 15))) (.bin .div (.bin .mul (.int 4) (.idx (.var n!"Fsbss") (.str n!"Fsbss4"))) (.int 45))) (.bin .div (.bin .mul (.int 5) (.idx (.var n!"Fsbuu") (.str n!"Fsbuu1"))) (.int 54))) (.bin .div (.idx (.var n!"Fsbuu") (.str n!"Fsbuu2")) (.int 54))) (.bin .div (.bin .mul (.int 4) (.idx (.var n!"Fsbuu") (.str n!"Fsbuu3"))) (.int 15))) (.bin .div (.bin .mul (.int 4) (.idx (.var n!"Fsbuu") (.str n!"Fsbuu4"))) (.int 45))),
    .assign n!"c4" (.bin .add (.bin .sub (.bin .add (.bin .add (.bin .sub (.bin .add (.bin .sub (.bin .add (.bin .add (.bin .add (.bin .div (.neg (.idx (.var n!"Fsbbb") (.str n!"Fsbbb1"))) (.int 9)) (.bin .div (.bin .mul (.int 8) (.idx (.var n!"Fsbbb") (.str n!"Fsbbb4"))) (.int 15))) (.bin .div (.bin .mul (.int 8) (.idx (.var n!"Fsbcc") (.str n!"Fsbcc4"))) (.int 15))) (.bin .div (.idx (.var n!"Fsbdd") (.str n!"Fsbdd1")) (.int 9))) (.bin .div (.bin .mul (.int 2) (.idx (.var n!"Fsbdd") (.str n!"Fsbdd2"))) (.int 9))) (.bin .div (.bin .mul (.int 8) (.idx (.var n!"Fsbdd") (.str n!"Fsbdd4"))) (.int 15))) (.bin .div (.idx (.var n!"Fsbss") (.str n!"Fsbss1")) (.int 9))) (.bin .div (.bin .mul (.int 8) (.idx (.var n!"Fsbss") (.str n!"Fsbss4"))) (.int 15))) (.bin .div (.idx (.var n!"Fsbuu") (.str n!"Fsbuu1")) (.int 9))) (.bin .div (.bin .mul (.int 2) (.idx (.var n!"Fsbuu") (.str n!"Fsbuu2"))) (.int 9))) (.bin .div (.bin .mul (.int 8) (.idx (.var n!"Fsbuu") (.str n!"Fsbuu4"))) (.int 15))),
    .assign n!"c5" (.list es![(.bin .sub (.bin .sub (.bin .sub (.bin .add (.bin .sub (.bin .sub (.bin .add (.bin .sub (.bin .sub (.bin .sub (.bin .add (.bin .sub (.bin .sub (.bin .sub (.bin .sub (.bin .div (.idx (.var n!"Fsbbb") (.str n!"Fsbbb1")) (.int 54)) (.bin .div (.idx (.var n!"Fsbbb") (.str n!"Fsbbb3")) (.int 60))) (.bin .div (.idx (.var n!"Fsbbb") (.str n!"Fsbbb4")) (.int 180))) (.bin .div (.idx (.var n!"Fsbcc") (.str n!"Fsbcc3")) (.int 60))) (.bin .div (.idx (.var n!"Fsbcc") (.str n!"Fsbcc4")) (.int 180))) (.bin .div (.bin .mul (.int 5) (.idx (.var n!"Fsbdd") (.str n!"Fsbdd1"))) (.int 216))) (.bin .div (.idx (.var n!"Fsbdd") (.str n!"Fsbdd2")) (.int 216))) (.bin .div (.idx (.var n!"Fsbdd") (.str n!"Fsbdd3")) (.int 60))) (.bin .div (.idx (.var n!"Fsbdd") (.str n!"Fsbdd4")) (.int 180))) (.bin .div (.idx (.var n!"Fsbss") (.str n!"Fsbss1")) (.int 54))) (.bin .div (.idx (.var n!"Fsbss") (.str n!"Fsbss3")) (.int 60))) (.bin .div (.idx (.var n!"Fsbss") (.str n!"Fsbss4")) (.int 180))) (.bin .div (.bin .mul (.int 5) (.idx (.var n!"Fsbuu") (.str n!"Fsbuu1"))) (.int 216))) (.bin .div (.idx (.var n!"Fsbuu") (.str n!"Fsbuu2")) (.int 216))) (.bin .div (.idx (.var n!"Fsbuu") (.str n!"Fsbuu3")) (.int 60))) (.bin .div (.idx (.var n!"Fsbuu") (.str n!"Fsbuu4")) (.int 180)))]),
    .assign n!"c6" (.bin .sub (.bin .add (.bin .sub (.bin .sub (.bin .add (.bin .sub (.bin .add (.bin .sub (.bin .sub (.bin .sub (.bin .div (.idx (.var n!"Fsbbb") (.str n!"Fsbbb1")) (.int 36)) (.bin .div (.idx (.var n!"Fsbbb") (.str n!"Fsbbb4")) (.int 30))) (.bin .div (.idx (.var n!"Fsbcc") (.str n!"Fsbcc4")) (.int 30))) (.bin .div (.idx (.var n!"Fsbdd") (.str n!"Fsbdd1")) (.int 36))) (.bin .div (.idx (.var n!"Fsbdd") (.str n!"Fsbdd2")) (.int 18))) (.bin .div (.idx (.var n!"Fsbdd") (.str n!"Fsbdd4")) (.int 30))) (.bin .div (.idx (.var n!"Fsbss") (.str n!"Fsbss1")) (.int 36))) (.bin .div (.idx (.var n!"Fsbss") (.str n!"Fsbss4")) (.int 30))) (.bin .div (.idx (.var n!"Fsbuu") (.str n!"Fsbuu1")) (.int 36))) (.bin .div (.idx (.var n!"Fsbuu") (.str n!"Fsbuu2")) (.int 18))) (.bin .div (.idx (.var n!"Fsbuu") (.str n!"Fsbuu4")) (.int 30))),
    .assign n!"dic" (.dict kv![
        (.str n!"b->s::c1") : (.call n!"np.real" es![(.var n!"c1")]),
        (.str n!"b->s::c2") : (.call n!"np.real" es![(.var n!"c2")]),
        (.str n!"b->s::c3") : (.call n!"np.real" es![(.var n!"c3")]),
        (.str n!"b->s::c4") : (.call n!"np.real" es![(.var n!"c4")]),
        (.str n!"b->s::c5") : (.call n!"np.real" es![(.var n!"c5")]),
        (.str n!"b->s::c6") : (.call n!"np.real" es![(.var n!"c6")])]),
    .assign n!"prefactor" (.bin .div (.bin .div (.bin .div (.bin .div (.call n!"sqrt" es![(.int 2)]) (.idx (.var n!"p") (.str n!"GF"))) (.var n!"Vtb")) (.meth (.var n!"Vts") n!"conj" es![])) (.int 4)),
    .ret (.dcomp n!"k" n!"v" (.var n!"dic") (.var n!"k") (.bin .mul (.var n!"prefactor") (.var n!"v")))]⟩

/-- wet.py:1054-1089 `JMS_to_Fierz_lep` -/
def fn_JMS_to_Fierz_lep : Fn := ⟨n!"JMS_to_Fierz_lep", [n!"C", n!"ddll"],
  st![.ite (.bin .eq (.slice (.var n!"ddll") .none (.int 2)) (.str n!"uc")) st![.assign n!"s" (.idx (.var n!"uflav") (.idx (.var n!"ddll") (.int 0))),
      .assign n!"b" (.idx (.var n!"uflav") (.idx (.var n!"ddll") (.int 1))),
      .assign n!"q" (.str n!"u")] st![.assign n!"s" (.idx (.var n!"dflav") (.idx (.var n!"ddll") (.int 0))),
      .assign n!"b" (.idx (.var n!"dflav") (.idx (.var n!"ddll") (.int 1))),
      .assign n!"q" (.str n!"d")],
    .assign n!"l" (.idx (.var n!"lflav") (.slice (.var n!"ddll") (.int 4) (.meth (.var n!"ddll") n!"find" es![(.str n!"n")]))),
    .assign n!"lp" (.idx (.var n!"lflav") (.slice (.var n!"ddll") (.bin .add (.meth (.var n!"ddll") n!"find" es![(.str n!"_"), (.int 5)]) (.int 1)) (.call n!"len" es![(.var n!"ddll")]))),
    .assign n!"ind" (.meth (.meth (.var n!"ddll") n!"replace" es![(.str n!"l_"), (.str n!"")]) n!"replace" es![(.str n!"nu_"), (.str n!"")]),
    .ret (.dict kv![
        (.bin .add (.bin .add (.str n!"F") (.var n!"ind")) (.str n!"9")) : (.bin .add (.bin .div (.idx (.idx (.var n!"C") (.bin .add (.bin .add (.str n!"V") (.var n!"q")) (.str n!"eLR"))) (.list es![(.var n!"s"), (.var n!"b"), (.var n!"l"), (.var n!"lp")])) (.int 2)) (.bin .div (.idx (.idx (.var n!"C") (.bin .add (.bin .add (.str n!"Ve") (.var n!"q")) (.str n!"LL"))) (.list es![(.var n!"l"), (.var n!"lp"), (.var n!"s"), (.var n!"b")])) (.int 2))),
        (.bin .add (.bin .add (.str n!"F") (.var n!"ind")) (.str n!"10")) : (.bin .sub (.bin .div (.idx (.idx (.var n!"C") (.bin .add (.bin .add (.str n!"V") (.var n!"q")) (.str n!"eLR"))) (.list es![(.var n!"s"), (.var n!"b"), (.var n!"l"), (.var n!"lp")])) (.int 2)) (.bin .div (.idx (.idx (.var n!"C") (.bin .add (.bin .add (.str n!"Ve") (.var n!"q")) (.str n!"LL"))) (.list es![(.var n!"l"), (.var n!"lp"), (.var n!"s"), (.var n!"b")])) (.int 2))),
        (.bin .add (.bin .add (.str n!"F") (.var n!"ind")) (.str n!"S")) : (.bin .add (.bin .div (.meth (.idx (.idx (.var n!"C") (.bin .add (.bin .add (.str n!"Se") (.var n!"q")) (.str n!"RL"))) (.list es![(.var n!"lp"), (.var n!"l"), (.var n!"b"), (.var n!"s")])) n!"conj" es![]) (.int 2)) (.bin .div (.idx (.idx (.var n!"C") (.bin .add (.bin .add (.str n!"Se") (.var n!"q")) (.str n!"RR"))) (.list es![(.var n!"l"), (.var n!"lp"), (.var n!"s"), (.var n!"b")])) (.int 2))),
        (.bin .add (.bin .add (.str n!"F") (.var n!"ind")) (.str n!"P")) : (.bin .add (.bin .div (.neg (.meth (.idx (.idx (.var n!"C") (.bin .add (.bin .add (.str n!"Se") (.var n!"q")) (.str n!"RL"))) (.list es![(.var n!"lp"), (.var n!"l"), (.var n!"b"), (.var n!"s")])) n!"conj" es![])) (.int 2)) (.bin .div (.idx (.idx (.var n!"C") (.bin .add (.bin .add (.str n!"Se") (.var n!"q")) (.str n!"RR"))) (.list es![(.var n!"l"), (.var n!"lp"), (.var n!"s"), (.var n!"b")])) (.int 2))),
        (.bin .add (.bin .add (.str n!"F") (.var n!"ind")) (.str n!"T")) : (.bin .add (.bin .div (.idx (.idx (.var n!"C") (.bin .add (.bin .add (.str n!"Te") (.var n!"q")) (.str n!"RR"))) (.list es![(.var n!"l"), (.var n!"lp"), (.var n!"s"), (.var n!"b")])) (.int 2)) (.bin .div (.meth (.idx (.idx (.var n!"C") (.bin .add (.bin .add (.str n!"Te") (.var n!"q")) (.str n!"RR"))) (.list es![(.var n!"lp"), (.var n!"l"), (.var n!"b"), (.var n!"s")])) n!"conj" es![]) (.int 2))),
        (.bin .add (.bin .add (.str n!"F") (.var n!"ind")) (.str n!"T5")) : (.bin .sub (.bin .div (.idx (.idx (.var n!"C") (.bin .add (.bin .add (.str n!"Te") (.var n!"q")) (.str n!"RR"))) (.list es![(.var n!"l"), (.var n!"lp"), (.var n!"s"), (.var n!"b")])) (.int 2)) (.bin .div (.meth (.idx (.idx (.var n!"C") (.bin .add (.bin .add (.str n!"Te") (.var n!"q")) (.str n!"RR"))) (.list es![(.var n!"lp"), (.var n!"l"), (.var n!"b"), (.var n!"s")])) n!"conj" es![]) (.int 2))),
        (.bin .add (.bin .add (.str n!"F") (.var n!"ind")) (.str n!"9p")) : (.bin .add (.bin .div (.idx (.idx (.var n!"C") (.bin .add (.bin .add (.str n!"Ve") (.var n!"q")) (.str n!"LR"))) (.list es![(.var n!"l"), (.var n!"lp"), (.var n!"s"), (.var n!"b")])) (.int 2)) (.bin .div (.idx (.idx (.var n!"C") (.bin .add (.bin .add (.str n!"Ve") (.var n!"q")) (.str n!"RR"))) (.list es![(.var n!"l"), (.var n!"lp"), (.var n!"s"), (.var n!"b")])) (.int 2))),
        (.bin .add (.bin .add (.str n!"F") (.var n!"ind")) (.str n!"10p")) : (.bin .add (.bin .div (.neg (.idx (.idx (.var n!"C") (.bin .add (.bin .add (.str n!"Ve") (.var n!"q")) (.str n!"LR"))) (.list es![(.var n!"l"), (.var n!"lp"), (.var n!"s"), (.var n!"b")]))) (.int 2)) (.bin .div (.idx (.idx (.var n!"C") (.bin .add (.bin .add (.str n!"Ve") (.var n!"q")) (.str n!"RR"))) (.list es![(.var n!"l"), (.var n!"lp"), (.var n!"s"), (.var n!"b")])) (.int 2))),
        (.bin .add (.bin .add (.str n!"F") (.var n!"ind")) (.str n!"Sp")) : (.bin .add (.bin .div (.idx (.idx (.var n!"C") (.bin .add (.bin .add (.str n!"Se") (.var n!"q")) (.str n!"RL"))) (.list es![(.var n!"l"), (.var n!"lp"), (.var n!"s"), (.var n!"b")])) (.int 2)) (.bin .div (.meth (.idx (.idx (.var n!"C") (.bin .add (.bin .add (.str n!"Se") (.var n!"q")) (.str n!"RR"))) (.list es![(.var n!"lp"), (.var n!"l"), (.var n!"b"), (.var n!"s")])) n!"conj" es![]) (.int 2))),
        (.bin .add (.bin .add (.str n!"F") (.var n!"ind")) (.str n!"Pp")) : (.bin .sub (.bin .div (.idx (.idx (.var n!"C") (.bin .add (.bin .add (.str n!"Se") (.var n!"q")) (.str n!"RL"))) (.list es![(.var n!"l"), (.var n!"lp"), (.var n!"s"), (.var n!"b")])) (.int 2)) (.bin .div (.meth (.idx (.idx (.var n!"C") (.bin .add (.bin .add (.str n!"Se") (.var n!"q")) (.str n!"RR"))) (.list es![(.var n!"lp"), (.var n!"l"), (.var n!"b"), (.var n!"s")])) n!"conj" es![]) (.int 2)))])]⟩

/-- wet.py:1091-1102 `JMS_to_Fierz_nunu` -/
def fn_JMS_to_Fierz_nunu : Fn := ⟨n!"JMS_to_Fierz_nunu", [n!"C", n!"ddll"],
  st![.assign n!"s" (.idx (.var n!"dflav") (.idx (.var n!"ddll") (.int 0))),
    .assign n!"b" (.idx (.var n!"dflav") (.idx (.var n!"ddll") (.int 1))),
    .assign n!"l" (.idx (.var n!"lflav") (.slice (.var n!"ddll") (.int 4) (.meth (.var n!"ddll") n!"find" es![(.str n!"n")]))),
    .assign n!"lp" (.idx (.var n!"lflav") (.slice (.var n!"ddll") (.bin .add (.meth (.var n!"ddll") n!"find" es![(.str n!"_"), (.int 5)]) (.int 1)) (.call n!"len" es![(.var n!"ddll")]))),
    .assign n!"ind" (.meth (.meth (.var n!"ddll") n!"replace" es![(.str n!"l_"), (.str n!"")]) n!"replace" es![(.str n!"nu_"), (.str n!"")]),
    .ret (.dict kv![
        (.bin .add (.bin .add (.str n!"F") (.var n!"ind")) (.str n!"nu")) : (.idx (.idx (.var n!"C") (.str n!"VnudLL")) (.list es![(.var n!"l"), (.var n!"lp"), (.var n!"s"), (.var n!"b")])),
        (.bin .add (.bin .add (.str n!"F") (.var n!"ind")) (.str n!"nup")) : (.idx (.idx (.var n!"C") (.str n!"VnudLR")) (.list es![(.var n!"l"), (.var n!"lp"), (.var n!"s"), (.var n!"b")]))])]⟩

/-- wet.py:1105-1131 `Fierz_to_JMS_lep` -/
def fn_Fierz_to_JMS_lep : Fn := ⟨n!"Fierz_to_JMS_lep", [n!"C", n!"ddll"],
  st![.ite (.bin .eq (.slice (.var n!"ddll") .none (.int 2)) (.str n!"uc")) st![.assign n!"s" (.call n!"str" es![(.bin .add (.idx (.var n!"uflav") (.idx (.var n!"ddll") (.int 0))) (.int 1))]),
      .assign n!"b" (.call n!"str" es![(.bin .add (.idx (.var n!"uflav") (.idx (.var n!"ddll") (.int 1))) (.int 1))]),
      .assign n!"q" (.str n!"u")] st![.assign n!"s" (.call n!"str" es![(.bin .add (.idx (.var n!"dflav") (.idx (.var n!"ddll") (.int 0))) (.int 1))]),
      .assign n!"b" (.call n!"str" es![(.bin .add (.idx (.var n!"dflav") (.idx (.var n!"ddll") (.int 1))) (.int 1))]),
      .assign n!"q" (.str n!"d")],
    .assign n!"l" (.call n!"str" es![(.bin .add (.idx (.var n!"lflav") (.slice (.var n!"ddll") (.int 4) (.meth (.var n!"ddll") n!"find" es![(.str n!"n")]))) (.int 1))]),
    .assign n!"lp" (.call n!"str" es![(.bin .add (.idx (.var n!"lflav") (.slice (.var n!"ddll") (.bin .add (.meth (.var n!"ddll") n!"find" es![(.str n!"_"), (.int 5)]) (.int 1)) (.call n!"len" es![(.var n!"ddll")]))) (.int 1))]),
    .assign n!"ind" (.meth (.meth (.var n!"ddll") n!"replace" es![(.str n!"l_"), (.str n!"")]) n!"replace" es![(.str n!"nu_"), (.str n!"")]),
    .assign n!"d" (.dict kv![
        (.bin .add (.bin .add (.bin .add (.bin .add (.bin .add (.bin .add (.bin .add (.str n!"Ve") (.var n!"q")) (.str n!"LL")) (.str n!"_")) (.var n!"l")) (.var n!"lp")) (.var n!"s")) (.var n!"b")) : (.bin .add (.neg (.idx (.var n!"C") (.bin .add (.bin .add (.str n!"F") (.var n!"ind")) (.str n!"10")))) (.idx (.var n!"C") (.bin .add (.bin .add (.str n!"F") (.var n!"ind")) (.str n!"9")))),
        (.bin .add (.bin .add (.bin .add (.bin .add (.bin .add (.bin .add (.bin .add (.str n!"V") (.var n!"q")) (.str n!"eLR")) (.str n!"_")) (.var n!"s")) (.var n!"b")) (.var n!"l")) (.var n!"lp")) : (.bin .add (.idx (.var n!"C") (.bin .add (.bin .add (.str n!"F") (.var n!"ind")) (.str n!"10"))) (.idx (.var n!"C") (.bin .add (.bin .add (.str n!"F") (.var n!"ind")) (.str n!"9")))),
        (.bin .add (.bin .add (.bin .add (.bin .add (.bin .add (.bin .add (.bin .add (.str n!"Se") (.var n!"q")) (.str n!"RR")) (.str n!"_")) (.var n!"l")) (.var n!"lp")) (.var n!"s")) (.var n!"b")) : (.bin .add (.idx (.var n!"C") (.bin .add (.bin .add (.str n!"F") (.var n!"ind")) (.str n!"P"))) (.idx (.var n!"C") (.bin .add (.bin .add (.str n!"F") (.var n!"ind")) (.str n!"S")))),
        (.bin .add (.bin .add (.bin .add (.bin .add (.bin .add (.bin .add (.bin .add (.str n!"Se") (.var n!"q")) (.str n!"RL")) (.str n!"_")) (.var n!"lp")) (.var n!"l")) (.var n!"b")) (.var n!"s")) : (.bin .add (.neg (.meth (.idx (.var n!"C") (.bin .add (.bin .add (.str n!"F") (.var n!"ind")) (.str n!"P"))) n!"conj" es![])) (.meth (.idx (.var n!"C") (.bin .add (.bin .add (.str n!"F") (.var n!"ind")) (.str n!"S"))) n!"conj" es![])),
        (.bin .add (.bin .add (.bin .add (.bin .add (.bin .add (.bin .add (.bin .add (.str n!"Te") (.var n!"q")) (.str n!"RR")) (.str n!"_")) (.var n!"lp")) (.var n!"l")) (.var n!"b")) (.var n!"s")) : (.bin .sub (.meth (.idx (.var n!"C") (.bin .add (.bin .add (.str n!"F") (.var n!"ind")) (.str n!"T"))) n!"conj" es![]) (.meth (.idx (.var n!"C") (.bin .add (.bin .add (.str n!"F") (.var n!"ind")) (.str n!"T5"))) n!"conj" es![])),
        (.bin .add (.bin .add (.bin .add (.bin .add (.bin .add (.bin .add (.bin .add (.str n!"Te") (.var n!"q")) (.str n!"RR")) (.str n!"_")) (.var n!"l")) (.var n!"lp")) (.var n!"s")) (.var n!"b")) : (.bin .add (.idx (.var n!"C") (.bin .add (.bin .add (.str n!"F") (.var n!"ind")) (.str n!"T"))) (.idx (.var n!"C") (.bin .add (.bin .add (.str n!"F") (.var n!"ind")) (.str n!"T5")))),
        (.bin .add (.bin .add (.bin .add (.bin .add (.bin .add (.bin .add (.bin .add (.str n!"Ve") (.var n!"q")) (.str n!"LR")) (.str n!"_")) (.var n!"l")) (.var n!"lp")) (.var n!"s")) (.var n!"b")) : (.bin .add (.neg (.idx (.var n!"C") (.bin .add (.bin .add (.str n!"F") (.var n!"ind")) (.str n!"10p")))) (.idx (.var n!"C") (.bin .add (.bin .add (.str n!"F") (.var n!"ind")) (.str n!"9p")))),
        (.bin .add (.bin .add (.bin .add (.bin .add (.bin .add (.bin .add (.bin .add (.str n!"Ve") (.var n!"q")) (.str n!"RR")) (.str n!"_")) (.var n!"l")) (.var n!"lp")) (.var n!"s")) (.var n!"b")) : (.bin .add (.idx (.var n!"C") (.bin .add (.bin .add (.str n!"F") (.var n!"ind")) (.str n!"10p"))) (.idx (.var n!"C") (.bin .add (.bin .add (.str n!"F") (.var n!"ind")) (.str n!"9p")))),
        (.bin .add (.bin .add (.bin .add (.bin .add (.bin .add (.bin .add (.bin .add (.str n!"Se") (.var n!"q")) (.str n!"RL")) (.str n!"_")) (.var n!"l")) (.var n!"lp")) (.var n!"s")) (.var n!"b")) : (.bin .add (.idx (.var n!"C") (.bin .add (.bin .add (.str n!"F") (.var n!"ind")) (.str n!"Pp"))) (.idx (.var n!"C") (.bin .add (.bin .add (.str n!"F") (.var n!"ind")) (.str n!"Sp")))),
        (.bin .add (.bin .add (.bin .add (.bin .add (.bin .add (.bin .add (.bin .add (.str n!"Se") (.var n!"q")) (.str n!"RR")) (.str n!"_")) (.var n!"lp")) (.var n!"l")) (.var n!"b")) (.var n!"s")) : (.bin .add (.neg (.meth (.idx (.var n!"C") (.bin .add (.bin .add (.str n!"F") (.var n!"ind")) (.str n!"Pp"))) n!"conj" es![])) (.meth (.idx (.var n!"C") (.bin .add (.bin .add (.str n!"F") (.var n!"ind")) (.str n!"Sp"))) n!"conj" es![]))]),
    .ret (.call n!"symmetrize_JMS_dict" es![(.var n!"d")])]⟩

/-- wet.py:1133-1145 `Fierz_to_JMS_nunu` -/
def fn_Fierz_to_JMS_nunu : Fn := ⟨n!"Fierz_to_JMS_nunu", [n!"C", n!"ddll"],
  st![.assign n!"s" (.call n!"str" es![(.bin .add (.idx (.var n!"dflav") (.idx (.var n!"ddll") (.int 0))) (.int 1))]),
    .assign n!"b" (.call n!"str" es![(.bin .add (.idx (.var n!"dflav") (.idx (.var n!"ddll") (.int 1))) (.int 1))]),
    .assign n!"l" (.call n!"str" es![(.bin .add (.idx (.var n!"lflav") (.slice (.var n!"ddll") (.int 4) (.meth (.var n!"ddll") n!"find" es![(.str n!"n")]))) (.int 1))]),
    .assign n!"lp" (.call n!"str" es![(.bin .add (.idx (.var n!"lflav") (.slice (.var n!"ddll") (.bin .add (.meth (.var n!"ddll") n!"find" es![(.str n!"_"), (.int 5)]) (.int 1)) (.call n!"len" es![(.var n!"ddll")]))) (.int 1))]),
    .assign n!"ind" (.meth (.meth (.var n!"ddll") n!"replace" es![(.str n!"l_"), (.str n!"")]) n!"replace" es![(.str n!"nu_"), (.str n!"")]),
    .assign n!"d" (.dict kv![
        (.bin .add (.bin .add (.bin .add (.bin .add (.bin .add (.str n!"VnudLL") (.str n!"_")) (.var n!"l")) (.var n!"lp")) (.var n!"s")) (.var n!"b")) : (.idx (.var n!"C") (.bin .add (.bin .add (.str n!"F") (.var n!"ind")) (.str n!"nu"))),
        (.bin .add (.bin .add (.bin .add (.bin .add (.bin .add (.str n!"VnudLR") (.str n!"_")) (.var n!"l")) (.var n!"lp")) (.var n!"s")) (.var n!"b")) : (.idx (.var n!"C") (.bin .add (.bin .add (.str n!"F") (.var n!"ind")) (.str n!"nup")))]),
    .ret (.call n!"symmetrize_JMS_dict" es![(.var n!"d")])]⟩

/-- wet.py:1148-1167 `Fierz_to_Bern_lep` -/
def fn_Fierz_to_Bern_lep : Fn := ⟨n!"Fierz_to_Bern_lep", [n!"C", n!"ddll"],
  st![.assign n!"ind" (.meth (.meth (.var n!"ddll") n!"replace" es![(.str n!"l_"), (.str n!"")]) n!"replace" es![(.str n!"nu_"), (.str n!"")]),
    .assign n!"dic" (.dict kv![
        (.bin .add (.str n!"1") (.var n!"ind")) : (.bin .add (.bin .div (.bin .mul (.int 5) (.idx (.var n!"C") (.bin .add (.bin .add (.str n!"F") (.var n!"ind")) (.str n!"10")))) (.int 3)) (.idx (.var n!"C") (.bin .add (.bin .add (.str n!"F") (.var n!"ind")) (.str n!"9")))),
        (.bin .add (.str n!"3") (.var n!"ind")) : (.bin .div (.neg (.idx (.var n!"C") (.bin .add (.bin .add (.str n!"F") (.var n!"ind")) (.str n!"10")))) (.int 6)),
        (.bin .add (.str n!"5") (.var n!"ind")) : (.bin .sub (.idx (.var n!"C") (.bin .add (.bin .add (.str n!"F") (.var n!"ind")) (.str n!"S"))) (.bin .div (.bin .mul (.int 5) (.idx (.var n!"C") (.bin .add (.bin .add (.str n!"F") (.var n!"ind")) (.str n!"P")))) (.int 3))),
        (.bin .add (.str n!"7") (.var n!"ind")) : (.bin .add (.bin .add (.bin .div (.bin .mul (.int 2) (.idx (.var n!"C") (.bin .add (.bin .add (.str n!"F") (.var n!"ind")) (.str n!"P")))) (.int 3)) (.idx (.var n!"C") (.bin .add (.bin .add (.str n!"F") (.var n!"ind")) (.str n!"T")))) (.idx (.var n!"C") (.bin .add (.bin .add (.str n!"F") (.var n!"ind")) (.str n!"T5")))),
        (.bin .add (.str n!"9") (.var n!"ind")) : (.bin .div (.idx (.var n!"C") (.bin .add (.bin .add (.str n!"F") (.var n!"ind")) (.str n!"P"))) (.int 24)),
        (.bin .add (.str n!"1p") (.var n!"ind")) : (.bin .sub (.idx (.var n!"C") (.bin .add (.bin .add (.str n!"F") (.var n!"ind")) (.str n!"9p"))) (.bin .div (.bin .mul (.int 5) (.idx (.var n!"C") (.bin .add (.bin .add (.str n!"F") (.var n!"ind")) (.str n!"10p")))) (.int 3))),
        (.bin .add (.str n!"3p") (.var n!"ind")) : (.bin .div (.idx (.var n!"C") (.bin .add (.bin .add (.str n!"F") (.var n!"ind")) (.str n!"10p"))) (.int 6)),
        (.bin .add (.str n!"5p") (.var n!"ind")) : (.bin .add (.bin .div (.bin .mul (.int 5) (.idx (.var n!"C") (.bin .add (.bin .add (.str n!"F") (.var n!"ind")) (.str n!"Pp")))) (.int 3)) (.idx (.var n!"C") (.bin .add (.bin .add (.str n!"F") (.var n!"ind")) (.str n!"Sp")))),
        (.bin .add (.str n!"7p") (.var n!"ind")) : (.bin .sub (.bin .add (.bin .div (.bin .mul (.neg (.int 2)) (.idx (.var n!"C") (.bin .add (.bin .add (.str n!"F") (.var n!"ind")) (.str n!"Pp")))) (.int 3)) (.idx (.var n!"C") (.bin .add (.bin .add (.str n!"F") (.var n!"ind")) (.str n!"T")))) (.idx (.var n!"C") (.bin .add (.bin .add (.str n!"F") (.var n!"ind")) (.str n!"T5")))),
        (.bin .add (.str n!"9p") (.var n!"ind")) : (.bin .div (.neg (.idx (.var n!"C") (.bin .add (.bin .add (.str n!"F") (.var n!"ind")) (.str n!"Pp")))) (.int 24))]),
    .ret (.var n!"dic")]⟩

/-- wet.py:1169-1179 `Fierz_to_Bern_nunu` -/
def fn_Fierz_to_Bern_nunu : Fn := ⟨n!"Fierz_to_Bern_nunu", [n!"C", n!"ddll"],
  st![.assign n!"ind" (.meth (.meth (.var n!"ddll") n!"replace" es![(.str n!"l_"), (.str n!"")]) n!"replace" es![(.str n!"nu_"), (.str n!"")]),
    .assign n!"dic" (.dict kv![
        (.bin .add (.str n!"nu1") (.var n!"ind")) : (.idx (.var n!"C") (.bin .add (.bin .add (.str n!"F") (.var n!"ind")) (.str n!"nu"))),
        (.bin .add (.str n!"nu1p") (.var n!"ind")) : (.idx (.var n!"C") (.bin .add (.bin .add (.str n!"F") (.var n!"ind")) (.str n!"nup")))]),
    .ret (.var n!"dic")]⟩

/-- wet.py:1182-1197 `Bern_to_Fierz_lep` -/
def fn_Bern_to_Fierz_lep : Fn := ⟨n!"Bern_to_Fierz_lep", [n!"C", n!"ddll"],
  st![.assign n!"ind" (.meth (.meth (.var n!"ddll") n!"replace" es![(.str n!"l_"), (.str n!"")]) n!"replace" es![(.str n!"nu_"), (.str n!"")]),
    .ret (.dict kv![
        (.bin .add (.bin .add (.str n!"F") (.var n!"ind")) (.str n!"9")) : (.bin .add (.idx (.var n!"C") (.bin .add (.str n!"1") (.var n!"ind"))) (.bin .mul (.int 10) (.idx (.var n!"C") (.bin .add (.str n!"3") (.var n!"ind"))))),
        (.bin .add (.bin .add (.str n!"F") (.var n!"ind")) (.str n!"10")) : (.bin .mul (.neg (.int 6)) (.idx (.var n!"C") (.bin .add (.str n!"3") (.var n!"ind")))),
        (.bin .add (.bin .add (.str n!"F") (.var n!"ind")) (.str n!"S")) : (.bin .add (.idx (.var n!"C") (.bin .add (.str n!"5") (.var n!"ind"))) (.bin .mul (.int 40) (.idx (.var n!"C") (.bin .add (.str n!"9") (.var n!"ind"))))),
        (.bin .add (.bin .add (.str n!"F") (.var n!"ind")) (.str n!"P")) : (.bin .mul (.int 24) (.idx (.var n!"C") (.bin .add (.str n!"9") (.var n!"ind")))),
        (.bin .add (.bin .add (.str n!"F") (.var n!"ind")) (.str n!"T")) : (.bin .sub (.bin .sub (.bin .add (.bin .div (.idx (.var n!"C") (.bin .add (.str n!"7") (.var n!"ind"))) (.int 2)) (.bin .div (.idx (.var n!"C") (.bin .add (.str n!"7p") (.var n!"ind"))) (.int 2))) (.bin .mul (.int 8) (.idx (.var n!"C") (.bin .add (.str n!"9") (.var n!"ind"))))) (.bin .mul (.int 8) (.idx (.var n!"C") (.bin .add (.str n!"9p") (.var n!"ind"))))),
        (.bin .add (.bin .add (.str n!"F") (.var n!"ind")) (.str n!"T5")) : (.bin .add (.bin .sub (.bin .sub (.bin .div (.idx (.var n!"C") (.bin .add (.str n!"7") (.var n!"ind"))) (.int 2)) (.bin .div (.idx (.var n!"C") (.bin .add (.str n!"7p") (.var n!"ind"))) (.int 2))) (.bin .mul (.int 8) (.idx (.var n!"C") (.bin .add (.str n!"9") (.var n!"ind"))))) (.bin .mul (.int 8) (.idx (.var n!"C") (.bin .add (.str n!"9p") (.var n!"ind"))))),
        (.bin .add (.bin .add (.str n!"F") (.var n!"ind")) (.str n!"9p")) : (.bin .add (.idx (.var n!"C") (.bin .add (.str n!"1p") (.var n!"ind"))) (.bin .mul (.int 10) (.idx (.var n!"C") (.bin .add (.str n!"3p") (.var n!"ind"))))),
        (.bin .add (.bin .add (.str n!"F") (.var n!"ind")) (.str n!"10p")) : (.bin .mul (.int 6) (.idx (.var n!"C") (.bin .add (.str n!"3p") (.var n!"ind")))),
        (.bin .add (.bin .add (.str n!"F") (.var n!"ind")) (.str n!"Sp")) : (.bin .add (.idx (.var n!"C") (.bin .add (.str n!"5p") (.var n!"ind"))) (.bin .mul (.int 40) (.idx (.var n!"C") (.bin .add (.str n!"9p") (.var n!"ind"))))),
        (.bin .add (.bin .add (.str n!"F") (.var n!"ind")) (.str n!"Pp")) : (.bin .mul (.neg (.int 24)) (.idx (.var n!"C") (.bin .add (.str n!"9p") (.var n!"ind"))))])]⟩

/-- wet.py:1200-1208 `Bern_to_Fierz_nunu` -/
def fn_Bern_to_Fierz_nunu : Fn := ⟨n!"Bern_to_Fierz_nunu", [n!"C", n!"ddll"],
  st![.assign n!"ind" (.meth (.meth (.var n!"ddll") n!"replace" es![(.str n!"l_"), (.str n!"")]) n!"replace" es![(.str n!"nu_"), (.str n!"")]),
    .ret (.dict kv![
        (.bin .add (.bin .add (.str n!"F") (.var n!"ind")) (.str n!"nu")) : (.idx (.var n!"C") (.bin .add (.str n!"nu1") (.var n!"ind"))),
        (.bin .add (.bin .add (.str n!"F") (.var n!"ind")) (.str n!"nup")) : (.idx (.var n!"C") (.bin .add (.str n!"nu1p") (.var n!"ind")))])]⟩

/-- wet.py:1211-1256 `Fierz_to_Flavio_lep` -/
def fn_Fierz_to_Flavio_lep : Fn := ⟨n!"Fierz_to_Flavio_lep", [n!"C", n!"ddll", n!"parameters", n!"norm_gf"],
  st![.assign n!"p" (.var n!"parameters"),
    .assign n!"V" (.call n!"ckmutil.ckm.ckm_tree" es![(.idx (.var n!"p") (.str n!"Vus")), (.idx (.var n!"p") (.str n!"Vub")), (.idx (.var n!"p") (.str n!"Vcb")), (.idx (.var n!"p") (.str n!"gamma"))]),
    .ite (.bin .eq (.slice (.var n!"ddll") .none (.int 2)) (.str n!"sb")) st![.assign n!"xi" (.bin .mul (.idx (.var n!"V") (.list es![(.int 2), (.int 2)])) (.meth (.idx (.var n!"V") (.list es![(.int 2), (.int 1)])) n!"conj" es![]))] st![.ite (.bin .eq (.slice (.var n!"ddll") .none (.int 2)) (.str n!"db")) st![.assign n!"xi" (.bin .mul (.idx (.var n!"V") (.list es![(.int 2), (.int 2)])) (.meth (.idx (.var n!"V") (.list es![(.int 2), (.int 0)])) n!"conj" es![]))] st![.ite (.bin .eq (.slice (.var n!"ddll") .none (.int 2)) (.str n!"ds")) st![.assign n!"xi" (.bin .mul (.idx (.var n!"V") (.list es![(.int 2), (.int 1)])) (.meth (.idx (.var n!"V") (.list es![(.int 2), (.int 0)])) n!"conj" es![]))] st![.ite (.bin .eq (.slice (.var n!"ddll") .none (.int 2)) (.str n!"uc")) st![.assign n!"xi" (.bin .mul (.meth (.idx (.var n!"V") (.list es![(.int 1), (.int 2)])) n!"conj" es![]) (.idx (.var n!"V") (.list es![(.int 0), (.int 2)])))] st![.raise]]]],
    .unpack [n!"q1", n!"q2"] (.slice (.var n!"ddll") .none (.int 2)),
    .assign n!"l1" (.slice (.var n!"ddll") (.int 4) (.meth (.var n!"ddll") n!"find" es![(.str n!"n")])),
    .assign n!"l2" (.slice (.var n!"ddll") (.bin .add (.meth (.var n!"ddll") n!"find" es![(.str n!"_"), (.int 5)]) (.int 1)) .none),
    .assign n!"ind" (.bin .add (.bin .add (.bin .add (.var n!"q1") (.var n!"q2")) (.var n!"l1")) (.var n!"l2")),
    .assign n!"indfl" (.bin .add (.bin .add (.bin .add (.var n!"q2") (.var n!"q1")) (.var n!"l2")) (.var n!"l1")),
    .assign n!"e" (.call n!"sqrt" es![(.bin .mul (.bin .mul (.int 4) (.var n!"pi")) (.idx (.var n!"parameters") (.str n!"alpha_e")))]),
    .ite (.or (.bin .eq (.slice (.var n!"ddll") .none (.int 2)) (.str n!"sb")) (.bin .eq (.slice (.var n!"ddll") .none (.int 2)) (.str n!"db"))) st![.assign n!"mq" (.idx (.var n!"parameters") (.str n!"m_b"))] st![.ite (.bin .eq (.slice (.var n!"ddll") .none (.int 2)) (.str n!"ds")) st![.assign n!"mq" (.idx (.var n!"parameters") (.str n!"m_s"))] st![.ite (.bin .eq (.slice (.var n!"ddll") .none (.int 2)) (.str n!"uc")) st![.assign n!"mq" (.idx (.var n!"parameters") (.str n!"m_c"))] st![.pass]]],
    .assign n!"dic" (.dict kv![
        (.bin .add (.str n!"C9_") (.var n!"indfl")) : (.bin .mul (.bin .div (.bin .mul (.int 16) (.bin .pow (.var n!"pi") (.int 2))) (.bin .pow (.var n!"e") (.int 2))) (.idx (.var n!"C") (.bin .add (.bin .add (.str n!"F") (.var n!"ind")) (.str n!"9")))),
        (.bin .add (.str n!"C9p_") (.var n!"indfl")) : (.bin .mul (.bin .div (.bin .mul (.int 16) (.bin .pow (.var n!"pi") (.int 2))) (.bin .pow (.var n!"e") (.int 2))) (.idx (.var n!"C") (.bin .add (.bin .add (.str n!"F") (.var n!"ind")) (.str n!"9p")))),
        (.bin .add (.str n!"C10_") (.var n!"indfl")) : (.bin .mul (.bin .div (.bin .mul (.int 16) (.bin .pow (.var n!"pi") (.int 2))) (.bin .pow (.var n!"e") (.int 2))) (.idx (.var n!"C") (.bin .add (.bin .add (.str n!"F") (.var n!"ind")) (.str n!"10")))),
        (.bin .add (.str n!"C10p_") (.var n!"indfl")) : (.bin .mul (.bin .div (.bin .mul (.int 16) (.bin .pow (.var n!"pi") (.int 2))) (.bin .pow (.var n!"e") (.int 2))) (.idx (.var n!"C") (.bin .add (.bin .add (.str n!"F") (.var n!"ind")) (.str n!"10p")))),
        (.bin .add (.str n!"CS_") (.var n!"indfl")) : (.bin .mul (.bin .div (.bin .div (.bin .mul (.int 16) (.bin .pow (.var n!"pi") (.int 2))) (.bin .pow (.var n!"e") (.int 2))) (.var n!"mq")) (.idx (.var n!"C") (.bin .add (.bin .add (.str n!"F") (.var n!"ind")) (.str n!"S")))),
        (.bin .add (.str n!"CSp_") (.var n!"indfl")) : (.bin .mul (.bin .div (.bin .div (.bin .mul (.int 16) (.bin .pow (.var n!"pi") (.int 2))) (.bin .pow (.var n!"e") (.int 2))) (.var n!"mq")) (.idx (.var n!"C") (.bin .add (.bin .add (.str n!"F") (.var n!"ind")) (.str n!"Sp")))),
        (.bin .add (.str n!"CP_") (.var n!"indfl")) : (.bin .mul (.bin .div (.bin .div (.bin .mul (.int 16) (.bin .pow (.var n!"pi") (.int 2))) (.bin .pow (.var n!"e") (.int 2))) (.var n!"mq")) (.idx (.var n!"C") (.bin .add (.bin .add (.str n!"F") (.var n!"ind")) (.str n!"P")))),
        (.bin .add (.str n!"CPp_") (.var n!"indfl")) : (.bin .mul (.bin .div (.bin .div (.bin .mul (.int 16) (.bin .pow (.var n!"pi") (.int 2))) (.bin .pow (.var n!"e") (.int 2))) (.var n!"mq")) (.idx (.var n!"C") (.bin .add (.bin .add (.str n!"F") (.var n!"ind")) (.str n!"Pp"))))]),
    .ite (.var n!"norm_gf") st![.assign n!"prefactor" (.bin .div (.bin .div (.bin .div (.call n!"sqrt" es![(.int 2)]) (.idx (.var n!"p") (.str n!"GF"))) (.var n!"xi")) (.int 4))] st![.assign n!"prefactor" (.bin .div (.int 1) (.var n!"xi"))],
    .ret (.dcomp n!"k" n!"v" (.var n!"dic") (.var n!"k") (.bin .mul (.var n!"prefactor") (.var n!"v")))]⟩

/-- wet.py:1259-1288 `Fierz_to_Flavio_nunu` -/
def fn_Fierz_to_Flavio_nunu : Fn := ⟨n!"Fierz_to_Flavio_nunu", [n!"C", n!"ddll", n!"parameters", n!"norm_gf"],
  st![.assign n!"p" (.var n!"parameters"),
    .assign n!"V" (.call n!"ckmutil.ckm.ckm_tree" es![(.idx (.var n!"p") (.str n!"Vus")), (.idx (.var n!"p") (.str n!"Vub")), (.idx (.var n!"p") (.str n!"Vcb")), (.idx (.var n!"p") (.str n!"gamma"))]),
    .ite (.bin .eq (.slice (.var n!"ddll") .none (.int 2)) (.str n!"sb")) st![.assign n!"xi" (.bin .mul (.idx (.var n!"V") (.list es![(.int 2), (.int 2)])) (.meth (.idx (.var n!"V") (.list es![(.int 2), (.int 1)])) n!"conj" es![]))] st![.ite (.bin .eq (.slice (.var n!"ddll") .none (.int 2)) (.str n!"db")) st![.assign n!"xi" (.bin .mul (.idx (.var n!"V") (.list es![(.int 2), (.int 2)])) (.meth (.idx (.var n!"V") (.list es![(.int 2), (.int 0)])) n!"conj" es![]))] st![.ite (.bin .eq (.slice (.var n!"ddll") .none (.int 2)) (.str n!"ds")) st![.assign n!"xi" (.bin .mul (.idx (.var n!"V") (.list es![(.int 2), (.int 1)])) (.meth (.idx (.var n!"V") (.list es![(.int 2), (.int 0)])) n!"conj" es![]))] st![.raise]]],
    .unpack [n!"q1", n!"q2"] (.slice (.var n!"ddll") .none (.int 2)),
    .assign n!"l1" (.slice (.var n!"ddll") (.int 4) (.meth (.var n!"ddll") n!"find" es![(.str n!"n")])),
    .assign n!"l2" (.slice (.var n!"ddll") (.bin .add (.meth (.var n!"ddll") n!"find" es![(.str n!"_"), (.int 5)]) (.int 1)) .none),
    .assign n!"ind" (.bin .add (.bin .add (.bin .add (.var n!"q1") (.var n!"q2")) (.var n!"l1")) (.var n!"l2")),
    .assign n!"indnu" (.bin .add (.bin .add (.bin .add (.bin .add (.bin .add (.var n!"q2") (.var n!"q1")) (.str n!"nu")) (.var n!"l2")) (.str n!"nu")) (.var n!"l1")),
    .assign n!"e" (.call n!"sqrt" es![(.bin .mul (.bin .mul (.int 4) (.var n!"pi")) (.idx (.var n!"parameters") (.str n!"alpha_e")))]),
    .assign n!"dic" (.dict kv![
        (.bin .add (.str n!"CL_") (.var n!"indnu")) : (.bin .mul (.bin .div (.bin .mul (.int 8) (.bin .pow (.var n!"pi") (.int 2))) (.bin .pow (.var n!"e") (.int 2))) (.idx (.var n!"C") (.bin .add (.bin .add (.str n!"F") (.var n!"ind")) (.str n!"nu")))),
        (.bin .add (.str n!"CR_") (.var n!"indnu")) : (.bin .mul (.bin .div (.bin .mul (.int 8) (.bin .pow (.var n!"pi") (.int 2))) (.bin .pow (.var n!"e") (.int 2))) (.idx (.var n!"C") (.bin .add (.bin .add (.str n!"F") (.var n!"ind")) (.str n!"nup"))))]),
    .ite (.var n!"norm_gf") st![.assign n!"prefactor" (.bin .div (.bin .div (.bin .div (.call n!"sqrt" es![(.int 2)]) (.idx (.var n!"p") (.str n!"GF"))) (.var n!"xi")) (.int 4))] st![.assign n!"prefactor" (.bin .div (.int 1) (.var n!"xi"))],
    .ret (.dcomp n!"k" n!"v" (.var n!"dic") (.var n!"k") (.bin .mul (.var n!"prefactor") (.var n!"v")))]⟩

/-- wet.py:1292-1339 `Flavio_to_Fierz_lep` -/
def fn_Flavio_to_Fierz_lep : Fn := ⟨n!"Flavio_to_Fierz_lep", [n!"C", n!"ddll", n!"parameters", n!"norm_gf"],
  st![.assign n!"p" (.var n!"parameters"),
    .assign n!"V" (.call n!"ckmutil.ckm.ckm_tree" es![(.idx (.var n!"p") (.str n!"Vus")), (.idx (.var n!"p") (.str n!"Vub")), (.idx (.var n!"p") (.str n!"Vcb")), (.idx (.var n!"p") (.str n!"gamma"))]),
    .ite (.bin .eq (.slice (.var n!"ddll") .none (.int 2)) (.str n!"sb")) st![.assign n!"xi" (.bin .mul (.idx (.var n!"V") (.list es![(.int 2), (.int 2)])) (.meth (.idx (.var n!"V") (.list es![(.int 2), (.int 1)])) n!"conj" es![]))] st![.ite (.bin .eq (.slice (.var n!"ddll") .none (.int 2)) (.str n!"db")) st![.assign n!"xi" (.bin .mul (.idx (.var n!"V") (.list es![(.int 2), (.int 2)])) (.meth (.idx (.var n!"V") (.list es![(.int 2), (.int 0)])) n!"conj" es![]))] st![.ite (.bin .eq (.slice (.var n!"ddll") .none (.int 2)) (.str n!"ds")) st![.assign n!"xi" (.bin .mul (.idx (.var n!"V") (.list es![(.int 2), (.int 1)])) (.meth (.idx (.var n!"V") (.list es![(.int 2), (.int 0)])) n!"conj" es![]))] st![.ite (.bin .eq (.slice (.var n!"ddll") .none (.int 2)) (.str n!"uc")) st![.assign n!"xi" (.bin .mul (.meth (.idx (.var n!"V") (.list es![(.int 1), (.int 2)])) n!"conj" es![]) (.idx (.var n!"V") (.list es![(.int 0), (.int 2)])))] st![.raise]]]],
    .unpack [n!"q1", n!"q2"] (.slice (.var n!"ddll") .none (.int 2)),
    .assign n!"l1" (.slice (.var n!"ddll") (.int 4) (.meth (.var n!"ddll") n!"find" es![(.str n!"n")])),
    .assign n!"l2" (.slice (.var n!"ddll") (.bin .add (.meth (.var n!"ddll") n!"find" es![(.str n!"_"), (.int 5)]) (.int 1)) .none),
    .assign n!"ind" (.bin .add (.bin .add (.bin .add (.var n!"q1") (.var n!"q2")) (.var n!"l1")) (.var n!"l2")),
    .assign n!"indfl" (.bin .add (.bin .add (.bin .add (.var n!"q2") (.var n!"q1")) (.var n!"l2")) (.var n!"l1")),
    .assign n!"e" (.call n!"sqrt" es![(.bin .mul (.bin .mul (.int 4) (.var n!"pi")) (.idx (.var n!"parameters") (.str n!"alpha_e")))]),
    .ite (.or (.bin .eq (.slice (.var n!"ddll") .none (.int 2)) (.str n!"sb")) (.bin .eq (.slice (.var n!"ddll") .none (.int 2)) (.str n!"db"))) st![.assign n!"mq" (.idx (.var n!"parameters") (.str n!"m_b"))] st![.ite (.bin .eq (.slice (.var n!"ddll") .none (.int 2)) (.str n!"ds")) st![.assign n!"mq" (.idx (.var n!"parameters") (.str n!"m_s"))] st![.ite (.bin .eq (.slice (.var n!"ddll") .none (.int 2)) (.str n!"uc")) st![.assign n!"mq" (.idx (.var n!"parameters") (.str n!"m_c"))] st![.pass]]],
    .assign n!"dic" (.dict kv![
        (.bin .add (.bin .add (.str n!"F") (.var n!"ind")) (.str n!"9")) : (.bin .div (.idx (.var n!"C") (.bin .add (.str n!"C9_") (.var n!"indfl"))) (.bin .div (.bin .mul (.int 16) (.bin .pow (.var n!"pi") (.int 2))) (.bin .pow (.var n!"e") (.int 2)))),
        (.bin .add (.bin .add (.str n!"F") (.var n!"ind")) (.str n!"9p")) : (.bin .div (.idx (.var n!"C") (.bin .add (.str n!"C9p_") (.var n!"indfl"))) (.bin .div (.bin .mul (.int 16) (.bin .pow (.var n!"pi") (.int 2))) (.bin .pow (.var n!"e") (.int 2)))),
        (.bin .add (.bin .add (.str n!"F") (.var n!"ind")) (.str n!"10")) : (.bin .div (.idx (.var n!"C") (.bin .add (.str n!"C10_") (.var n!"indfl"))) (.bin .div (.bin .mul (.int 16) (.bin .pow (.var n!"pi") (.int 2))) (.bin .pow (.var n!"e") (.int 2)))),
        (.bin .add (.bin .add (.str n!"F") (.var n!"ind")) (.str n!"10p")) : (.bin .div (.idx (.var n!"C") (.bin .add (.str n!"C10p_") (.var n!"indfl"))) (.bin .div (.bin .mul (.int 16) (.bin .pow (.var n!"pi") (.int 2))) (.bin .pow (.var n!"e") (.int 2)))),
        (.bin .add (.bin .add (.str n!"F") (.var n!"ind")) (.str n!"S")) : (.bin .div (.idx (.var n!"C") (.bin .add (.str n!"CS_") (.var n!"indfl"))) (.bin .div (.bin .div (.bin .mul (.int 16) (.bin .pow (.var n!"pi") (.int 2))) (.bin .pow (.var n!"e") (.int 2))) (.var n!"mq"))),
        (.bin .add (.bin .add (.str n!"F") (.var n!"ind")) (.str n!"Sp")) : (.bin .div (.idx (.var n!"C") (.bin .add (.str n!"CSp_") (.var n!"indfl"))) (.bin .div (.bin .div (.bin .mul (.int 16) (.bin .pow (.var n!"pi") (.int 2))) (.bin .pow (.var n!"e") (.int 2))) (.var n!"mq"))),
        (.bin .add (.bin .add (.str n!"F") (.var n!"ind")) (.str n!"P")) : (.bin .div (.idx (.var n!"C") (.bin .add (.str n!"CP_") (.var n!"indfl"))) (.bin .div (.bin .div (.bin .mul (.int 16) (.bin .pow (.var n!"pi") (.int 2))) (.bin .pow (.var n!"e") (.int 2))) (.var n!"mq"))),
        (.bin .add (.bin .add (.str n!"F") (.var n!"ind")) (.str n!"Pp")) : (.bin .div (.idx (.var n!"C") (.bin .add (.str n!"CPp_") (.var n!"indfl"))) (.bin .div (.bin .div (.bin .mul (.int 16) (.bin .pow (.var n!"pi") (.int 2))) (.bin .pow (.var n!"e") (.int 2))) (.var n!"mq"))),
        (.bin .add (.bin .add (.str n!"F") (.var n!"ind")) (.str n!"T")) : (.int 0),
        (.bin .add (.bin .add (.str n!"F") (.var n!"ind")) (.str n!"T5")) : (.int 0)]),
    .ite (.var n!"norm_gf") st![.assign n!"prefactor" (.bin .div (.bin .div (.bin .div (.call n!"sqrt" es![(.int 2)]) (.idx (.var n!"p") (.str n!"GF"))) (.var n!"xi")) (.int 4))] st![.assign n!"prefactor" (.bin .div (.int 1) (.var n!"xi"))],
    .ret (.dcomp n!"k" n!"v" (.var n!"dic") (.var n!"k") (.bin .div (.var n!"v") (.var n!"prefactor")))]⟩

/-- wet.py:1342-1371 `Flavio_to_Fierz_nunu` -/
def fn_Flavio_to_Fierz_nunu : Fn := ⟨n!"Flavio_to_Fierz_nunu", [n!"C", n!"ddll", n!"parameters", n!"norm_gf"],
  st![.assign n!"p" (.var n!"parameters"),
    .assign n!"V" (.call n!"ckmutil.ckm.ckm_tree" es![(.idx (.var n!"p") (.str n!"Vus")), (.idx (.var n!"p") (.str n!"Vub")), (.idx (.var n!"p") (.str n!"Vcb")), (.idx (.var n!"p") (.str n!"gamma"))]),
    .ite (.bin .eq (.slice (.var n!"ddll") .none (.int 2)) (.str n!"sb")) st![.assign n!"xi" (.bin .mul (.idx (.var n!"V") (.list es![(.int 2), (.int 2)])) (.meth (.idx (.var n!"V") (.list es![(.int 2), (.int 1)])) n!"conj" es![]))] st![.ite (.bin .eq (.slice (.var n!"ddll") .none (.int 2)) (.str n!"db")) st![.assign n!"xi" (.bin .mul (.idx (.var n!"V") (.list es![(.int 2), (.int 2)])) (.meth (.idx (.var n!"V") (.list es![(.int 2), (.int 0)])) n!"conj" es![]))] st![.ite (.bin .eq (.slice (.var n!"ddll") .none (.int 2)) (.str n!"ds")) st![.assign n!"xi" (.bin .mul (.idx (.var n!"V") (.list es![(.int 2), (.int 1)])) (.meth (.idx (.var n!"V") (.list es![(.int 2), (.int 0)])) n!"conj" es![]))] st![.raise]]],
    .unpack [n!"q1", n!"q2"] (.slice (.var n!"ddll") .none (.int 2)),
    .assign n!"l1" (.slice (.var n!"ddll") (.int 4) (.meth (.var n!"ddll") n!"find" es![(.str n!"n")])),
    .assign n!"l2" (.slice (.var n!"ddll") (.bin .add (.meth (.var n!"ddll") n!"find" es![(.str n!"_"), (.int 5)]) (.int 1)) .none),
    .assign n!"ind" (.bin .add (.bin .add (.bin .add (.var n!"q1") (.var n!"q2")) (.var n!"l1")) (.var n!"l2")),
    .assign n!"indnu" (.bin .add (.bin .add (.bin .add (.bin .add (.bin .add (.var n!"q2") (.var n!"q1")) (.str n!"nu")) (.var n!"l2")) (.str n!"nu")) (.var n!"l1")),
    .assign n!"e" (.call n!"sqrt" es![(.bin .mul (.bin .mul (.int 4) (.var n!"pi")) (.idx (.var n!"parameters") (.str n!"alpha_e")))]),
    .assign n!"dic" (.dict kv![
        (.bin .add (.bin .add (.str n!"F") (.var n!"ind")) (.str n!"nu")) : (.bin .div (.idx (.var n!"C") (.bin .add (.str n!"CL_") (.var n!"indnu"))) (.bin .div (.bin .mul (.int 8) (.bin .pow (.var n!"pi") (.int 2))) (.bin .pow (.var n!"e") (.int 2)))),
        (.bin .add (.bin .add (.str n!"F") (.var n!"ind")) (.str n!"nup")) : (.bin .div (.idx (.var n!"C") (.bin .add (.str n!"CR_") (.var n!"indnu"))) (.bin .div (.bin .mul (.int 8) (.bin .pow (.var n!"pi") (.int 2))) (.bin .pow (.var n!"e") (.int 2))))]),
    .ite (.var n!"norm_gf") st![.assign n!"prefactor" (.bin .div (.bin .div (.bin .div (.call n!"sqrt" es![(.int 2)]) (.idx (.var n!"p") (.str n!"GF"))) (.var n!"xi")) (.int 4))] st![.assign n!"prefactor" (.bin .div (.int 1) (.var n!"xi"))],
    .ret (.dcomp n!"k" n!"v" (.var n!"dic") (.var n!"k") (.bin .div (.var n!"v") (.var n!"prefactor")))]⟩

/-- wet.py:1374-1408 `Fierz_to_EOS_lep` -/
def fn_Fierz_to_EOS_lep : Fn := ⟨n!"Fierz_to_EOS_lep", [n!"C", n!"ddll", n!"parameters"],
  st![.assign n!"p" (.var n!"parameters"),
    .assign n!"V" (.call n!"ckmutil.ckm.ckm_tree" es![(.idx (.var n!"p") (.str n!"Vus")), (.idx (.var n!"p") (.str n!"Vub")), (.idx (.var n!"p") (.str n!"Vcb")), (.idx (.var n!"p") (.str n!"gamma"))]),
    .assign n!"Vtb" (.idx (.var n!"V") (.list es![(.int 2), (.int 2)])),
    .assign n!"Vts" (.idx (.var n!"V") (.list es![(.int 2), (.int 1)])),
    .assign n!"ind" (.meth (.meth (.var n!"ddll") n!"replace" es![(.str n!"l_"), (.str n!"")]) n!"replace" es![(.str n!"nu_"), (.str n!"")]),
    .assign n!"ind2" (.slice (.meth (.meth (.var n!"ddll") n!"replace" es![(.str n!"l_"), (.str n!"")]) n!"replace" es![(.str n!"nu_"), (.str n!"")]) (.int 2) .none),
    .assign n!"e" (.call n!"sqrt" es![(.bin .mul (.bin .mul (.int 4) (.var n!"pi")) (.idx (.var n!"parameters") (.str n!"alpha_e")))]),
    .assign n!"dic" (.dict kv![
        (.bin .add (.bin .add (.str n!"b->s") (.var n!"ind2")) (.str n!"::Re{c9}")) : (.call n!"np.real" es![(.bin .mul (.bin .div (.bin .mul (.int 16) (.bin .pow (.var n!"pi") (.int 2))) (.bin .pow (.var n!"e") (.int 2))) (.idx (.var n!"C") (.bin .add (.bin .add (.str n!"F") (.var n!"ind")) (.str n!"9"))))]),
        (.bin .add (.bin .add (.str n!"b->s") (.var n!"ind2")) (.str n!"::Im{c9}")) : (.call n!"np.imag" es![(.bin .mul (.bin .div (.bin .mul (.int 16) (.bin .pow (.var n!"pi") (.int 2))) (.bin .pow (.var n!"e") (.int 2))) (.idx (.var n!"C") (.bin .add (.bin .add (.str n!"F") (.var n!"ind")) (.str n!"9"))))]),
        (.bin .add (.bin .add (.str n!"b->s") (.var n!"ind2")) (.str n!"::Re{c9'}")) : (.call n!"np.real" es![(.bin .mul (.bin .div (.bin .mul (.int 16) (.bin .pow (.var n!"pi") (.int 2))) (.bin .pow (.var n!"e") (.int 2))) (.idx (.var n!"C") (.bin .add (.bin .add (.str n!"F") (.var n!"ind")) (.str n!"9p"))))]),
        (.bin .add (.bin .add (.str n!"b->s") (.var n!"ind2")) (.str n!"::Im{c9'}")) : (.call n!"np.imag" es![(.bin .mul (.bin .div (.bin .mul (.int 16) (.bin .pow (.var n!"pi") (.int 2))) (.bin .pow (.var n!"e") (.int 2))) (.idx (.var n!"C") (.bin .add (.bin .add (.str n!"F") (.var n!"ind")) (.str n!"9p"))))]),
        (.bin .add (.bin .add (.str n!"b->s") (.var n!"ind2")) (.str n!"::Re{c10}")) : (.call n!"np.real" es![(.bin .mul (.bin .div (.bin .mul (.int 16) (.bin .pow (.var n!"pi") (.int 2))) (.bin .pow (.var n!"e") (.int 2))) (.idx (.var n!"C") (.bin .add (.bin .add (.str n!"F") (.var n!"ind")) (.str n!"10"))))]),
        (.bin .add (.bin .add (.str n!"b->s") (.var n!"ind2")) (.str n!"::Im{c10}")) : (.call n!"np.imag" es![(.bin .mul (.bin .div (.bin .mul (.int 16) (.bin .pow (.var n!"pi") (.int 2))) (.bin .pow (.var n!"e") (.int 2))) (.idx (.var n!"C") (.bin .add (.bin .add (.str n!"F") (.var n!"ind")) (.str n!"10"))))]),
        (.bin .add (.bin .add (.str n!"b->s") (.var n!"ind2")) (.str n!"::Re{c10'}")) : (.call n!"np.real" es![(.bin .mul (.bin .div (.bin .mul (.int 16) (.bin .pow (.var n!"pi") (.int 2))) (.bin .pow (.var n!"e") (.int 2))) (.idx (.var n!"C") (.bin .add (.bin .add (.str n!"F") (.var n!"ind")) (.str n!"10p"))))]),
        (.bin .add (.bin .add (.str n!"b->s") (.var n!"ind2")) (.str n!"::Im{c10'}")) : (.call n!"np.imag" es![(.bin .mul (.bin .div (.bin .mul (.int 16) (.bin .pow (.var n!"pi") (.int 2))) (.bin .pow (.var n!"e") (.int 2))) (.idx (.var n!"C") (.bin .add (.bin .add (.str n!"F") (.var n!"ind")) (.str n!"10p"))))]),
        (.bin .add (.bin .add (.str n!"b->s") (.var n!"ind2")) (.str n!"::Re{cS}")) : (.call n!"np.real" es![(.bin .mul (.bin .div (.bin .mul (.int 16) (.bin .pow (.var n!"pi") (.int 2))) (.bin .pow (.var n!"e") (.int 2))) (.idx (.var n!"C") (.bin .add (.bin .add (.str n!"F") (.var n!"ind")) (.str n!"S"))))]),
        (.bin .add (.bin .add (.str n!"b->s") (.var n!"ind2")) (.str n!"::Im{cS}")) : (.call n!"np.imag" es![(.bin .mul (.bin .div (.bin .mul (.int 16) (.bin .pow (.var n!"pi") (.int 2))) (.bin .pow (.var n!"e") (.int 2))) (.idx (.var n!"C") (.bin .add (.bin .add (.str n!"F") (.var n!"ind")) (.str n!"S"))))]),
        (.bin .add (.bin .add (.str n!"b->s") (.var n!"ind2")) (.str n!"::Re{cS'}")) : (.call n!"np.real" es![(.bin .mul (.bin .div (.bin .mul (.int 16) (.bin .pow (.var n!"pi") (.int 2))) (.bin .pow (.var n!"e") (.int 2))) (.idx (.var n!"C") (.bin .add (.bin .add (.str n!"F") (.var n!"ind")) (.str n!"Sp"))))]),
        (.bin .add (.bin .add (.str n!"b->s") (.var n!"ind2")) (.str n!"::Im{cS'}")) : (.call n!"np.imag" es![(.bin .mul (.bin .div (.bin .mul (.int 16) (.bin .pow (.var n!"pi") (.int 2))) (.bin .pow (.var n!"e") (.int 2))) (.idx (.var n!"C") (.bin .add (.bin .add (.str n!"F") (.var n!"ind")) (.str n!"Sp"))))]),
        (.bin .add (.bin .add (.str n!"b->s") (.var n!"ind2")) (.str n!"::Re{cP}")) : (.call n!"np.real" es![(.bin .mul (.bin .div (.bin .mul (.int 16) (.bin .pow (.var n!"pi") (.int 2))) (.bin .pow (.var n!"e") (.int 2))) (.idx (.var n!"C") (.bin .add (.bin .add (.str n!"F") (.var n!"ind")) (.str n!"P"))))]),
        (.bin .add (.bin .add (.str n!"b->s") (.var n!"ind2")) (.str n!"::Im{cP}")) : (.call n!"np.imag" es![(.bin .mul (.bin .div (.bin .mul (.int 16) (.bin .pow (.var n!"pi") (.int 2))) (.bin .pow (.var n!"e") (.int 2))) (.idx (.var n!"C") (.bin .add (.bin .add (.str n!"F") (.var n!"ind")) (.str n!"P"))))]),
        (.bin .add (.bin .add (.str n!"b->s") (.var n!"ind2")) (.str n!"::Re{cP'}")) : (.call n!"np.real" es![(.bin .mul (.bin .div (.bin .mul (.int 16) (.bin .pow (.var n!"pi") (.int 2))) (.bin .pow (.var n!"e") (.int 2))) (.idx (.var n!"C") (.bin .add (.bin .add (.str n!"F") (.var n!"ind")) (.str n!"Pp"))))]),
        (.bin .add (.bin .add (.str n!"b->s") (.var n!"ind2")) (.str n!"::Im{cP'}")) : (.call n!"np.imag" es![(.bin .mul (.bin .div (.bin .mul (.int 16) (.bin .pow (.var n!"pi") (.int 2))) (.bin .pow (.var n!"e") (.int 2))) (.idx (.var n!"C") (.bin .add (.bin .add (.str n!"F") (.var n!"ind")) (.str n!"Pp"))))]),
        (.bin .add (.bin .add (.str n!"b->s") (.var n!"ind2")) (.str n!"::Re{cT}")) : (.call n!"np.real" es![(.bin .mul (.bin .div (.bin .mul (.int 16) (.bin .pow (.var n!"pi") (.int 2))) (.bin .pow (.var n!"e") (.int 2))) (.idx (.var n!"C") (.bin .add (.bin .add (.str n!"F") (.var n!"ind")) (.str n!"T"))))]),
        (.bin .add (.bin .add (.str n!"b->s") (.var n!"ind2")) (.str n!"::Im{cT}")) : (.call n!"np.imag" es![(.bin .mul (.bin .div (.bin .mul (.int 16) (.bin .pow (.var n!"pi") (.int 2))) (.bin .pow (.var n!"e") (.int 2))) (.idx (.var n!"C") (.bin .add (.bin .add (.str n!"F") (.var n!"ind")) (.str n!"T"))))]),
        (.bin .add (.bin .add (.str n!"b->s") (.var n!"ind2")) (.str n!"::Re{cT5}")) : (.call n!"np.real" es![(.bin .mul (.bin .div (.bin .mul (.int 16) (.bin .pow (.var n!"pi") (.int 2))) (.bin .pow (.var n!"e") (.int 2))) (.idx (.var n!"C") (.bin .add (.bin .add (.str n!"F") (.var n!"ind")) (.str n!"T5"))))]),
        (.bin .add (.bin .add (.str n!"b->s") (.var n!"ind2")) (.str n!"::Im{cT5}")) : (.call n!"np.imag" es![(.bin .mul (.bin .div (.bin .mul (.int 16) (.bin .pow (.var n!"pi") (.int 2))) (.bin .pow (.var n!"e") (.int 2))) (.idx (.var n!"C") (.bin .add (.bin .add (.str n!"F") (.var n!"ind")) (.str n!"T5"))))])]),
    .assign n!"prefactor" (.bin .div (.bin .div (.bin .div (.bin .div (.call n!"sqrt" es![(.int 2)]) (.idx (.var n!"p") (.str n!"GF"))) (.var n!"Vtb")) (.meth (.var n!"Vts") n!"conj" es![])) (.int 4)),
    .ret (.dcomp n!"k" n!"v" (.var n!"dic") (.var n!"k") (.bin .mul (.var n!"prefactor") (.var n!"v")))]⟩

/-- wet.py:1410-1433 `JMS_to_FormFlavor_lep` -/
def fn_JMS_to_FormFlavor_lep : Fn := ⟨n!"JMS_to_FormFlavor_lep", [n!"C", n!"dd"],
  st![.assign n!"b" (.idx (.var n!"dflav") (.idx (.var n!"dd") (.int 0))),
    .assign n!"s" (.idx (.var n!"dflav") (.idx (.var n!"dd") (.int 1))),
    .ret (.dict kv![
        (.bin .add (.bin .add (.str n!"CVLL_") (.var n!"dd")) (.str n!"mm")) : (.idx (.idx (.var n!"C") (.str n!"VedLL")) (.list es![(.int 1), (.int 1), (.var n!"s"), (.var n!"b")])),
        (.bin .add (.bin .add (.str n!"CVRR_") (.var n!"dd")) (.str n!"mm")) : (.idx (.idx (.var n!"C") (.str n!"VedRR")) (.list es![(.int 1), (.int 1), (.var n!"s"), (.var n!"b")])),
        (.bin .add (.bin .add (.str n!"CVLR_") (.var n!"dd")) (.str n!"mm")) : (.idx (.idx (.var n!"C") (.str n!"VdeLR")) (.list es![(.var n!"s"), (.var n!"b"), (.int 1), (.int 1)])),
        (.bin .add (.bin .add (.str n!"CVRL_") (.var n!"dd")) (.str n!"mm")) : (.idx (.idx (.var n!"C") (.str n!"VedLR")) (.list es![(.int 1), (.int 1), (.var n!"s"), (.var n!"b")])),
        (.bin .add (.bin .add (.str n!"CSLL_") (.var n!"dd")) (.str n!"mm")) : (.meth (.idx (.idx (.var n!"C") (.str n!"SedRR")) (.list es![(.int 1), (.int 1), (.var n!"b"), (.var n!"s")])) n!"conj" es![]),
        (.bin .add (.bin .add (.str n!"CSRR_") (.var n!"dd")) (.str n!"mm")) : (.idx (.idx (.var n!"C") (.str n!"SedRR")) (.list es![(.int 1), (.int 1), (.var n!"s"), (.var n!"b")])),
        (.bin .add (.bin .add (.str n!"CSLR_") (.var n!"dd")) (.str n!"mm")) : (.idx (.idx (.var n!"C") (.str n!"SedRL")) (.list es![(.int 1), (.int 1), (.var n!"s"), (.var n!"b")])),
        (.bin .add (.bin .add (.str n!"CSRL_") (.var n!"dd")) (.str n!"mm")) : (.meth (.idx (.idx (.var n!"C") (.str n!"SedRL")) (.list es![(.int 1), (.int 1), (.var n!"b"), (.var n!"s")])) n!"conj" es![]),
        (.bin .add (.bin .add (.str n!"CTLL_") (.var n!"dd")) (.str n!"mm")) : (.meth (.idx (.idx (.var n!"C") (.str n!"TedRR")) (.list es![(.int 1), (.int 1), (.var n!"b"), (.var n!"s")])) n!"conj" es![]),
        (.bin .add (.bin .add (.str n!"CTRR_") (.var n!"dd")) (.str n!"mm")) : (.idx (.idx (.var n!"C") (.str n!"TedRR")) (.list es![(.int 1), (.int 1), (.var n!"s"), (.var n!"b")])),
        (.str n!"CVLL_sdnn") : (.bin .add (.bin .add (.bin .mul (.bin .div (.int 1) (.int 3)) (.idx (.idx (.var n!"C") (.str n!"VnudLL")) (.list es![(.int 0), (.int 0), (.bin .sub (.var n!"s") (.int 1)), (.var n!"s")]))) (.bin .mul (.bin .div (.int 1) (.int 3)) (.idx (.idx (.var n!"C") (.str n!"VnudLL")) (.list es![(.int 1), (.int 1), (.bin .sub (.var n!"s") (.int 1)), (.var n!"s")])))) (.bin .mul (.bin .div (.int 1) (.int 3)) (.idx (.idx (.var n!"C") (.str n!"VnudLL")) (.list es![(.int 2), (.int 2), (.bin .sub (.var n!"s") (.int 1)), (.var n!"s")])))),
        (.str n!"CVRL_sdnn") : (.bin .add (.bin .add (.bin .mul (.bin .div (.int 1) (.int 3)) (.idx (.idx (.var n!"C") (.str n!"VnudLR")) (.list es![(.int 0), (.int 0), (.bin .sub (.var n!"s") (.int 1)), (.var n!"s")]))) (.bin .mul (.bin .div (.int 1) (.int 3)) (.idx (.idx (.var n!"C") (.str n!"VnudLR")) (.list es![(.int 1), (.int 1), (.bin .sub (.var n!"s") (.int 1)), (.var n!"s")])))) (.bin .mul (.bin .div (.int 1) (.int 3)) (.idx (.idx (.var n!"C") (.str n!"VnudLR")) (.list es![(.int 2), (.int 2), (.bin .sub (.var n!"s") (.int 1)), (.var n!"s")]))))])]⟩

/-- wet.py:1436-1456 `JMS_to_Fierz_chrom` -/
def fn_JMS_to_Fierz_chrom : Fn := ⟨n!"JMS_to_Fierz_chrom", [n!"C", n!"qq"],
  st![.ite (.bin .isin (.idx (.var n!"qq") (.int 0)) (.var n!"dflav")) st![.assign n!"s" (.idx (.var n!"dflav") (.idx (.var n!"qq") (.int 0))),
      .assign n!"b" (.idx (.var n!"dflav") (.idx (.var n!"qq") (.int 1))),
      .ret (.dict kv![
        (.bin .add (.str n!"F7gamma") (.var n!"qq")) : (.idx (.idx (.var n!"C") (.str n!"dgamma")) (.list es![(.var n!"s"), (.var n!"b")])),
        (.bin .add (.str n!"F8g") (.var n!"qq")) : (.idx (.idx (.var n!"C") (.str n!"dG")) (.list es![(.var n!"s"), (.var n!"b")])),
        (.bin .add (.str n!"F7pgamma") (.var n!"qq")) : (.meth (.idx (.idx (.var n!"C") (.str n!"dgamma")) (.list es![(.var n!"b"), (.var n!"s")])) n!"conj" es![]),
        (.bin .add (.str n!"F8pg") (.var n!"qq")) : (.meth (.idx (.idx (.var n!"C") (.str n!"dG")) (.list es![(.var n!"b"), (.var n!"s")])) n!"conj" es![])])] st![.assign n!"u" (.idx (.var n!"uflav") (.idx (.var n!"qq") (.int 0))),
      .assign n!"c" (.idx (.var n!"uflav") (.idx (.var n!"qq") (.int 1))),
      .ret (.dict kv![
        (.bin .add (.str n!"F7gamma") (.var n!"qq")) : (.idx (.idx (.var n!"C") (.str n!"ugamma")) (.list es![(.var n!"u"), (.var n!"c")])),
        (.bin .add (.str n!"F8g") (.var n!"qq")) : (.idx (.idx (.var n!"C") (.str n!"uG")) (.list es![(.var n!"u"), (.var n!"c")])),
        (.bin .add (.str n!"F7pgamma") (.var n!"qq")) : (.meth (.idx (.idx (.var n!"C") (.str n!"ugamma")) (.list es![(.var n!"c"), (.var n!"u")])) n!"conj" es![]),
        (.bin .add (.str n!"F8pg") (.var n!"qq")) : (.meth (.idx (.idx (.var n!"C") (.str n!"uG")) (.list es![(.var n!"c"), (.var n!"u")])) n!"conj" es![])])]]⟩

/-- wet.py:1459-1477 `Fierz_to_JMS_chrom` -/
def fn_Fierz_to_JMS_chrom : Fn := ⟨n!"Fierz_to_JMS_chrom", [n!"C", n!"qq"],
  st![.ite (.bin .isin (.idx (.var n!"qq") (.int 0)) (.var n!"dflav")) st![.assign n!"s" (.bin .add (.idx (.var n!"dflav") (.idx (.var n!"qq") (.int 0))) (.int 1)),
      .assign n!"b" (.bin .add (.idx (.var n!"dflav") (.idx (.var n!"qq") (.int 1))) (.int 1)),
      .ret (.dict kv![
        (.fstr es![(.str n!"dgamma_"), (.var n!"s"), (.var n!"b")]) : (.idx (.var n!"C") (.bin .add (.str n!"F7gamma") (.var n!"qq"))),
        (.fstr es![(.str n!"dG_"), (.var n!"s"), (.var n!"b")]) : (.idx (.var n!"C") (.bin .add (.str n!"F8g") (.var n!"qq"))),
        (.fstr es![(.str n!"dgamma_"), (.var n!"b"), (.var n!"s")]) : (.meth (.idx (.var n!"C") (.bin .add (.str n!"F7pgamma") (.var n!"qq"))) n!"conj" es![]),
        (.fstr es![(.str n!"dG_"), (.var n!"b"), (.var n!"s")]) : (.meth (.idx (.var n!"C") (.bin .add (.str n!"F8pg") (.var n!"qq"))) n!"conj" es![])])] st![.assign n!"u" (.bin .add (.idx (.var n!"uflav") (.idx (.var n!"qq") (.int 0))) (.int 1)),
      .assign n!"c" (.bin .add (.idx (.var n!"uflav") (.idx (.var n!"qq") (.int 1))) (.int 1)),
      .ret (.dict kv![
        (.fstr es![(.str n!"ugamma_"), (.var n!"u"), (.var n!"c")]) : (.idx (.var n!"C") (.bin .add (.str n!"F7gamma") (.var n!"qq"))),
        (.fstr es![(.str n!"uG_"), (.var n!"u"), (.var n!"c")]) : (.idx (.var n!"C") (.bin .add (.str n!"F8g") (.var n!"qq"))),
        (.fstr es![(.str n!"ugamma_"), (.var n!"c"), (.var n!"u")]) : (.meth (.idx (.var n!"C") (.bin .add (.str n!"F7pgamma") (.var n!"qq"))) n!"conj" es![]),
        (.fstr es![(.str n!"uG_"), (.var n!"c"), (.var n!"u")]) : (.meth (.idx (.var n!"C") (.bin .add (.str n!"F8pg") (.var n!"qq"))) n!"conj" es![])])]]⟩

/-- wet.py:1480-1496 `Fierz_to_Bern_chrom` -/
def fn_Fierz_to_Bern_chrom : Fn := ⟨n!"Fierz_to_Bern_chrom", [n!"C", n!"dd", n!"parameters"],
  st![.assign n!"e" (.call n!"sqrt" es![(.bin .mul (.bin .mul (.int 4) (.var n!"pi")) (.idx (.var n!"parameters") (.str n!"alpha_e")))]),
    .assign n!"gs" (.call n!"sqrt" es![(.bin .mul (.bin .mul (.int 4) (.var n!"pi")) (.idx (.var n!"parameters") (.str n!"alpha_s")))]),
    .ite (.or (.bin .eq (.var n!"dd") (.str n!"sb")) (.bin .eq (.var n!"dd") (.str n!"db"))) st![.assign n!"mq" (.idx (.var n!"parameters") (.str n!"m_b"))] st![.ite (.bin .eq (.var n!"dd") (.str n!"ds")) st![.assign n!"mq" (.idx (.var n!"parameters") (.str n!"m_s"))] st![.pass]],
    .ret (.dict kv![
        (.bin .add (.str n!"7gamma") (.var n!"dd")) : (.bin .mul (.bin .div (.bin .div (.bin .pow (.var n!"gs") (.int 2)) (.var n!"e")) (.var n!"mq")) (.idx (.var n!"C") (.bin .add (.str n!"F7gamma") (.var n!"dd")))),
        (.bin .add (.str n!"8g") (.var n!"dd")) : (.bin .mul (.bin .div (.var n!"gs") (.var n!"mq")) (.idx (.var n!"C") (.bin .add (.str n!"F8g") (.var n!"dd")))),
        (.bin .add (.str n!"7pgamma") (.var n!"dd")) : (.bin .mul (.bin .div (.bin .div (.bin .pow (.var n!"gs") (.int 2)) (.var n!"e")) (.var n!"mq")) (.idx (.var n!"C") (.bin .add (.str n!"F7pgamma") (.var n!"dd")))),
        (.bin .add (.str n!"8pg") (.var n!"dd")) : (.bin .mul (.bin .div (.var n!"gs") (.var n!"mq")) (.idx (.var n!"C") (.bin .add (.str n!"F8pg") (.var n!"dd"))))])]⟩

/-- wet.py:1499-1515 `Bern_to_Fierz_chrom` -/
def fn_Bern_to_Fierz_chrom : Fn := ⟨n!"Bern_to_Fierz_chrom", [n!"C", n!"dd", n!"parameters"],
  st![.assign n!"e" (.call n!"sqrt" es![(.bin .mul (.bin .mul (.int 4) (.var n!"pi")) (.idx (.var n!"parameters") (.str n!"alpha_e")))]),
    .assign n!"gs" (.call n!"sqrt" es![(.bin .mul (.bin .mul (.int 4) (.var n!"pi")) (.idx (.var n!"parameters") (.str n!"alpha_s")))]),
    .ite (.or (.bin .eq (.var n!"dd") (.str n!"sb")) (.bin .eq (.var n!"dd") (.str n!"db"))) st![.assign n!"mq" (.idx (.var n!"parameters") (.str n!"m_b"))] st![.ite (.bin .eq (.var n!"dd") (.str n!"ds")) st![.assign n!"mq" (.idx (.var n!"parameters") (.str n!"m_s"))] st![.pass]],
    .ret (.dict kv![
        (.bin .add (.str n!"F7gamma") (.var n!"dd")) : (.bin .div (.idx (.var n!"C") (.bin .add (.str n!"7gamma") (.var n!"dd"))) (.bin .div (.bin .div (.bin .pow (.var n!"gs") (.int 2)) (.var n!"e")) (.var n!"mq"))),
        (.bin .add (.str n!"F8g") (.var n!"dd")) : (.bin .div (.idx (.var n!"C") (.bin .add (.str n!"8g") (.var n!"dd"))) (.bin .div (.var n!"gs") (.var n!"mq"))),
        (.bin .add (.str n!"F7pgamma") (.var n!"dd")) : (.bin .div (.idx (.var n!"C") (.bin .add (.str n!"7pgamma") (.var n!"dd"))) (.bin .div (.bin .div (.bin .pow (.var n!"gs") (.int 2)) (.var n!"e")) (.var n!"mq"))),
        (.bin .add (.str n!"F8pg") (.var n!"dd")) : (.bin .div (.idx (.var n!"C") (.bin .add (.str n!"8pg") (.var n!"dd"))) (.bin .div (.var n!"gs") (.var n!"mq")))])]⟩

/-- wet.py:1518-1551 `Fierz_to_Flavio_chrom` -/
def fn_Fierz_to_Flavio_chrom : Fn := ⟨n!"Fierz_to_Flavio_chrom", [n!"C", n!"qq", n!"parameters"],
  st![.assign n!"p" (.var n!"parameters"),
    .assign n!"V" (.call n!"ckmutil.ckm.ckm_tree" es![(.idx (.var n!"p") (.str n!"Vus")), (.idx (.var n!"p") (.str n!"Vub")), (.idx (.var n!"p") (.str n!"Vcb")), (.idx (.var n!"p") (.str n!"gamma"))]),
    .ite (.bin .eq (.var n!"qq") (.str n!"sb")) st![.assign n!"xi" (.bin .mul (.idx (.var n!"V") (.list es![(.int 2), (.int 2)])) (.meth (.idx (.var n!"V") (.list es![(.int 2), (.int 1)])) n!"conj" es![]))] st![.ite (.bin .eq (.var n!"qq") (.str n!"db")) st![.assign n!"xi" (.bin .mul (.idx (.var n!"V") (.list es![(.int 2), (.int 2)])) (.meth (.idx (.var n!"V") (.list es![(.int 2), (.int 0)])) n!"conj" es![]))] st![.ite (.bin .eq (.var n!"qq") (.str n!"ds")) st![.assign n!"xi" (.bin .mul (.idx (.var n!"V") (.list es![(.int 2), (.int 1)])) (.meth (.idx (.var n!"V") (.list es![(.int 2), (.int 0)])) n!"conj" es![]))] st![.ite (.bin .eq (.var n!"qq") (.str n!"uc")) st![.assign n!"xi" (.bin .mul (.meth (.idx (.var n!"V") (.list es![(.int 1), (.int 2)])) n!"conj" es![]) (.idx (.var n!"V") (.list es![(.int 0), (.int 2)])))] st![.raise]]]],
    .assign n!"qqfl" (.rev (.var n!"qq")),
    .assign n!"e" (.call n!"sqrt" es![(.bin .mul (.bin .mul (.int 4) (.var n!"pi")) (.idx (.var n!"parameters") (.str n!"alpha_e")))]),
    .assign n!"gs" (.call n!"sqrt" es![(.bin .mul (.bin .mul (.int 4) (.var n!"pi")) (.idx (.var n!"parameters") (.str n!"alpha_s")))]),
    .ite (.or (.bin .eq (.var n!"qq") (.str n!"sb")) (.bin .eq (.var n!"qq") (.str n!"db"))) st![.assign n!"mq" (.idx (.var n!"parameters") (.str n!"m_b"))] st![.ite (.bin .eq (.var n!"qq") (.str n!"ds")) st![.assign n!"mq" (.idx (.var n!"parameters") (.str n!"m_s"))] st![.ite (.bin .eq (.var n!"qq") (.str n!"uc")) st![.assign n!"mq" (.idx (.var n!"parameters") (.str n!"m_c"))] st![.pass]]],
    .assign n!"dic" (.dict kv![
        (.bin .add (.str n!"C7_") (.var n!"qqfl")) : (.bin .mul (.bin .div (.bin .div (.bin .mul (.int 16) (.bin .pow (.var n!"pi") (.int 2))) (.var n!"e")) (.var n!"mq")) (.idx (.var n!"C") (.bin .add (.str n!"F7gamma") (.var n!"qq")))),
        (.bin .add (.str n!"C8_") (.var n!"qqfl")) : (.bin .mul (.bin .div (.bin .div (.bin .mul (.int 16) (.bin .pow (.var n!"pi") (.int 2))) (.var n!"gs")) (.var n!"mq")) (.idx (.var n!"C") (.bin .add (.str n!"F8g") (.var n!"qq")))),
        (.bin .add (.str n!"C7p_") (.var n!"qqfl")) : (.bin .mul (.bin .div (.bin .div (.bin .mul (.int 16) (.bin .pow (.var n!"pi") (.int 2))) (.var n!"e")) (.var n!"mq")) (.idx (.var n!"C") (.bin .add (.str n!"F7pgamma") (.var n!"qq")))),
        (.bin .add (.str n!"C8p_") (.var n!"qqfl")) : (.bin .mul (.bin .div (.bin .div (.bin .mul (.int 16) (.bin .pow (.var n!"pi") (.int 2))) (.var n!"gs")) (.var n!"mq")) (.idx (.var n!"C") (.bin .add (.str n!"F8pg") (.var n!"qq"))))]),
    .assign n!"prefactor" (.bin .div (.bin .div (.bin .div (.call n!"sqrt" es![(.int 2)]) (.idx (.var n!"p") (.str n!"GF"))) (.var n!"xi")) (.int 4)),
    .ret (.dcomp n!"k" n!"v" (.var n!"dic") (.var n!"k") (.bin .mul (.var n!"prefactor") (.var n!"v")))]⟩

/-- wet.py:1554-1587 `Flavio_to_Fierz_chrom` -/
def fn_Flavio_to_Fierz_chrom : Fn := ⟨n!"Flavio_to_Fierz_chrom", [n!"C", n!"qq", n!"parameters"],
  st![.assign n!"p" (.var n!"parameters"),
    .assign n!"V" (.call n!"ckmutil.ckm.ckm_tree" es![(.idx (.var n!"p") (.str n!"Vus")), (.idx (.var n!"p") (.str n!"Vub")), (.idx (.var n!"p") (.str n!"Vcb")), (.idx (.var n!"p") (.str n!"gamma"))]),
    .ite (.bin .eq (.var n!"qq") (.str n!"sb")) st![.assign n!"xi" (.bin .mul (.idx (.var n!"V") (.list es![(.int 2), (.int 2)])) (.meth (.idx (.var n!"V") (.list es![(.int 2), (.int 1)])) n!"conj" es![]))] st![.ite (.bin .eq (.var n!"qq") (.str n!"db")) st![.assign n!"xi" (.bin .mul (.idx (.var n!"V") (.list es![(.int 2), (.int 2)])) (.meth (.idx (.var n!"V") (.list es![(.int 2), (.int 0)])) n!"conj" es![]))] st![.ite (.bin .eq (.var n!"qq") (.str n!"ds")) st![.assign n!"xi" (.bin .mul (.idx (.var n!"V") (.list es![(.int 2), (.int 1)])) (.meth (.idx (.var n!"V") (.list es![(.int 2), (.int 0)])) n!"conj" es![]))] st![.ite (.bin .eq (.var n!"qq") (.str n!"uc")) st![.assign n!"xi" (.bin .mul (.meth (.idx (.var n!"V") (.list es![(.int 1), (.int 2)])) n!"conj" es![]) (.idx (.var n!"V") (.list es![(.int 0), (.int 2)])))] st![.raise]]]],
    .assign n!"qqfl" (.rev (.var n!"qq")),
    .assign n!"e" (.call n!"sqrt" es![(.bin .mul (.bin .mul (.int 4) (.var n!"pi")) (.idx (.var n!"parameters") (.str n!"alpha_e")))]),
    .assign n!"gs" (.call n!"sqrt" es![(.bin .mul (.bin .mul (.int 4) (.var n!"pi")) (.idx (.var n!"parameters") (.str n!"alpha_s")))]),
    .ite (.or (.bin .eq (.var n!"qq") (.str n!"sb")) (.bin .eq (.var n!"qq") (.str n!"db"))) st![.assign n!"mq" (.idx (.var n!"parameters") (.str n!"m_b"))] st![.ite (.bin .eq (.var n!"qq") (.str n!"ds")) st![.assign n!"mq" (.idx (.var n!"parameters") (.str n!"m_s"))] st![.ite (.bin .eq (.var n!"qq") (.str n!"uc")) st![.assign n!"mq" (.idx (.var n!"parameters") (.str n!"m_c"))] st![.pass]]],
    .assign n!"dic" (.dict kv![
        (.bin .add (.str n!"F7gamma") (.var n!"qq")) : (.bin .div (.idx (.var n!"C") (.bin .add (.str n!"C7_") (.var n!"qqfl"))) (.bin .div (.bin .div (.bin .mul (.int 16) (.bin .pow (.var n!"pi") (.int 2))) (.var n!"e")) (.var n!"mq"))),
        (.bin .add (.str n!"F8g") (.var n!"qq")) : (.bin .div (.idx (.var n!"C") (.bin .add (.str n!"C8_") (.var n!"qqfl"))) (.bin .div (.bin .div (.bin .mul (.int 16) (.bin .pow (.var n!"pi") (.int 2))) (.var n!"gs")) (.var n!"mq"))),
        (.bin .add (.str n!"F7pgamma") (.var n!"qq")) : (.bin .div (.idx (.var n!"C") (.bin .add (.str n!"C7p_") (.var n!"qqfl"))) (.bin .div (.bin .div (.bin .mul (.int 16) (.bin .pow (.var n!"pi") (.int 2))) (.var n!"e")) (.var n!"mq"))),
        (.bin .add (.str n!"F8pg") (.var n!"qq")) : (.bin .div (.idx (.var n!"C") (.bin .add (.str n!"C8p_") (.var n!"qqfl"))) (.bin .div (.bin .div (.bin .mul (.int 16) (.bin .pow (.var n!"pi") (.int 2))) (.var n!"gs")) (.var n!"mq")))]),
    .assign n!"prefactor" (.bin .div (.bin .div (.bin .div (.call n!"sqrt" es![(.int 2)]) (.idx (.var n!"p") (.str n!"GF"))) (.var n!"xi")) (.int 4)),
    .ret (.dcomp n!"k" n!"v" (.var n!"dic") (.var n!"k") (.bin .div (.var n!"v") (.var n!"prefactor")))]⟩

/-- wet.py:1590-1609 `Fierz_to_EOS_chrom` -/
def fn_Fierz_to_EOS_chrom : Fn := ⟨n!"Fierz_to_EOS_chrom", [n!"C", n!"dd", n!"parameters"],
  st![.assign n!"p" (.var n!"parameters"),
    .assign n!"V" (.call n!"ckmutil.ckm.ckm_tree" es![(.idx (.var n!"p") (.str n!"Vus")), (.idx (.var n!"p") (.str n!"Vub")), (.idx (.var n!"p") (.str n!"Vcb")), (.idx (.var n!"p") (.str n!"gamma"))]),
    .assign n!"Vtb" (.idx (.var n!"V") (.list es![(.int 2), (.int 2)])),
    .assign n!"Vts" (.idx (.var n!"V") (.list es![(.int 2), (.int 1)])),
    .assign n!"e" (.call n!"sqrt" es![(.bin .mul (.bin .mul (.int 4) (.var n!"pi")) (.idx (.var n!"parameters") (.str n!"alpha_e")))]),
    .assign n!"gs" (.call n!"sqrt" es![(.bin .mul (.bin .mul (.int 4) (.var n!"pi")) (.idx (.var n!"parameters") (.str n!"alpha_s")))]),
    .assign n!"mb" (.idx (.var n!"parameters") (.str n!"m_b")),
    .assign n!"dic" (.dict kv![
        (.str n!"b->s::Re{c7}") : (.call n!"np.real" es![(.bin .mul (.bin .div (.bin .div (.bin .mul (.int 16) (.bin .pow (.var n!"pi") (.int 2))) (.var n!"mb")) (.var n!"e")) (.idx (.var n!"C") (.bin .add (.str n!"F7gamma") (.var n!"dd"))))]),
        (.str n!"b->s::Im{c7}") : (.call n!"np.imag" es![(.bin .mul (.bin .div (.bin .div (.bin .mul (.int 16) (.bin .pow (.var n!"pi") (.int 2))) (.var n!"mb")) (.var n!"e")) (.idx (.var n!"C") (.bin .add (.str n!"F7gamma") (.var n!"dd"))))]),
        (.str n!"b->s::Re{c7'}") : (.call n!"np.real" es![(.bin .mul (.bin .div (.bin .div (.bin .mul (.int 16) (.bin .pow (.var n!"pi") (.int 2))) (.var n!"mb")) (.var n!"e")) (.idx (.var n!"C") (.bin .add (.str n!"F7pgamma") (.var n!"dd"))))]),
        (.str n!"b->s::Im{c7'}") : (.call n!"np.imag" es![(.bin .mul (.bin .div (.bin .div (.bin .mul (.int 16) (.bin .pow (.var n!"pi") (.int 2))) (.var n!"mb")) (.var n!"e")) (.idx (.var n!"C") (.bin .add (.str n!"F7pgamma") (.var n!"dd"))))]),
        (.str n!"b->s::c8") : (.call n!"np.real" es![(.bin .mul (.bin .div (.bin .div (.bin .mul (.int 16) (.bin .pow (.var n!"pi") (.int 2))) (.var n!"mb")) (.var n!"gs")) (.idx (.var n!"C") (.bin .add (.str n!"F8g") (.var n!"dd"))))]),
        (.str n!"b->s::c8'") : (.call n!"np.real" es![(.bin .mul (.bin .div (.bin .div (.bin .mul (.int 16) (.bin .pow (.var n!"pi") (.int 2))) (.var n!"mb")) (.var n!"gs")) (.idx (.var n!"C") (.bin .add (.str n!"F8pg") (.var n!"dd"))))])]),
    .assign n!"prefactor" (.bin .div (.bin .div (.bin .div (.bin .div (.call n!"sqrt" es![(.int 2)]) (.idx (.var n!"p") (.str n!"GF"))) (.var n!"Vtb")) (.meth (.var n!"Vts") n!"conj" es![])) (.int 4)),
    .ret (.dcomp n!"k" n!"v" (.var n!"dic") (.var n!"k") (.bin .mul (.var n!"prefactor") (.var n!"v")))]⟩

/-- wet.py:1612-1643 `JMS_to_FormFlavor_chrom` -/
def fn_JMS_to_FormFlavor_chrom : Fn := ⟨n!"JMS_to_FormFlavor_chrom", [n!"C", n!"qq", n!"parameters"],
  st![.assign n!"e" (.call n!"sqrt" es![(.bin .mul (.bin .mul (.int 4) (.var n!"pi")) (.idx (.var n!"parameters") (.str n!"alpha_e")))]),
    .assign n!"gs" (.call n!"sqrt" es![(.bin .mul (.bin .mul (.int 4) (.var n!"pi")) (.idx (.var n!"parameters") (.str n!"alpha_s")))]),
    .ite (.bin .isin (.idx (.var n!"qq") (.int 0)) (.meth (.var n!"dflav") n!"keys" es![])) st![.assign n!"s" (.idx (.var n!"dflav") (.idx (.var n!"qq") (.int 0))),
      .assign n!"b" (.idx (.var n!"dflav") (.idx (.var n!"qq") (.int 1))),
      .ret (.dict kv![
        (.bin .add (.str n!"CAR_") (.var n!"qq")) : (.bin .div (.idx (.idx (.var n!"C") (.str n!"dgamma")) (.list es![(.var n!"s"), (.var n!"b")])) (.var n!"e")),
        (.bin .add (.str n!"CGR_") (.var n!"qq")) : (.bin .div (.idx (.idx (.var n!"C") (.str n!"dG")) (.list es![(.var n!"s"), (.var n!"b")])) (.var n!"gs")),
        (.bin .add (.str n!"CAL_") (.var n!"qq")) : (.bin .div (.meth (.idx (.idx (.var n!"C") (.str n!"dgamma")) (.list es![(.var n!"b"), (.var n!"s")])) n!"conj" es![]) (.var n!"e")),
        (.bin .add (.str n!"CGL_") (.var n!"qq")) : (.bin .div (.meth (.idx (.idx (.var n!"C") (.str n!"dG")) (.list es![(.var n!"b"), (.var n!"s")])) n!"conj" es![]) (.var n!"gs"))])] st![],
    .ite (.bin .isin (.idx (.var n!"qq") (.int 0)) (.meth (.var n!"llflav") n!"keys" es![])) st![.assign n!"l1" (.idx (.var n!"llflav") (.idx (.var n!"qq") (.int 0))),
      .assign n!"l2" (.idx (.var n!"llflav") (.idx (.var n!"qq") (.int 1))),
      .ret (.dict kv![
        (.bin .add (.str n!"CAR_") (.var n!"qq")) : (.bin .div (.idx (.idx (.var n!"C") (.str n!"egamma")) (.list es![(.var n!"l1"), (.var n!"l2")])) (.var n!"e")),
        (.bin .add (.str n!"CAL_") (.var n!"qq")) : (.bin .div (.meth (.idx (.idx (.var n!"C") (.str n!"egamma")) (.list es![(.var n!"l2"), (.var n!"l1")])) n!"conj" es![]) (.var n!"gs"))])] st![],
    .ite (.bin .isin (.idx (.var n!"qq") (.int 0)) (.meth (.var n!"uflav") n!"keys" es![])) st![.assign n!"u" (.idx (.var n!"uflav") (.idx (.var n!"qq") (.int 0))),
      .assign n!"c" (.idx (.var n!"uflav") (.idx (.var n!"qq") (.int 1))),
      .ret (.dict kv![
        (.bin .add (.str n!"CAR_") (.var n!"qq")) : (.bin .div (.idx (.idx (.var n!"C") (.str n!"ugamma")) (.list es![(.var n!"u"), (.var n!"c")])) (.var n!"e")),
        (.bin .add (.str n!"CGR_") (.var n!"qq")) : (.bin .div (.idx (.idx (.var n!"C") (.str n!"uG")) (.list es![(.var n!"u"), (.var n!"c")])) (.var n!"gs")),
        (.bin .add (.str n!"CAL_") (.var n!"qq")) : (.bin .div (.meth (.idx (.idx (.var n!"C") (.str n!"ugamma")) (.list es![(.var n!"c"), (.var n!"u")])) n!"conj" es![]) (.var n!"e")),
        (.bin .add (.str n!"CGL_") (.var n!"qq")) : (.bin .div (.meth (.idx (.idx (.var n!"C") (.str n!"uG")) (.list es![(.var n!"c"), (.var n!"u")])) n!"conj" es![]) (.var n!"gs"))])] st![.ret (.str n!"not in FormFlav_chrom")]]⟩

/-- wet.py:1646-1670 `_JMS_to_Flavio_VII` -/
def fn_JMS_to_Flavio_VII : Fn := ⟨n!"_JMS_to_Flavio_VII", [n!"C", n!"parameters"],
  st![.assign n!"d" (.dict kv![
        ]),
    .assign n!"dtrans" (.call n!"load_table" es![.str n!"data/flavio_jms_vii.json"]),
    .for2 n!"cj" n!"cf" (.var n!"dtrans") st![.setItem n!"d" (.var n!"cf") (.meth (.var n!"C") n!"get" es![(.var n!"cj"), (.int 0)])],
    .assign n!"gs" (.call n!"sqrt" es![(.bin .mul (.bin .mul (.int 4) (.var n!"pi")) (.idx (.var n!"parameters") (.str n!"alpha_s")))]),
    .assign n!"e" (.call n!"sqrt" es![(.bin .mul (.bin .mul (.int 4) (.var n!"pi")) (.idx (.var n!"parameters") (.str n!"alpha_e")))]),
    .assign n!"preC7" (.bin .div (.bin .mul (.int 16) (.bin .pow (.var n!"pi") (.int 2))) (.var n!"e")),
    .assign n!"preC8" (.bin .div (.bin .mul (.int 16) (.bin .pow (.var n!"pi") (.int 2))) (.var n!"gs")),
    .setItem n!"d" (.str n!"C8_uu") (.bin .mul (.bin .div (.var n!"preC8") (.idx (.var n!"parameters") (.str n!"m_u"))) (.meth (.var n!"C") n!"get" es![(.str n!"uG_11"), (.int 0)])),
    .setItem n!"d" (.str n!"C8_cc") (.bin .mul (.bin .div (.var n!"preC8") (.idx (.var n!"parameters") (.str n!"m_c"))) (.meth (.var n!"C") n!"get" es![(.str n!"uG_22"), (.int 0)])),
    .setItem n!"d" (.str n!"C8_dd") (.bin .mul (.bin .div (.var n!"preC8") (.idx (.var n!"parameters") (.str n!"m_d"))) (.meth (.var n!"C") n!"get" es![(.str n!"dG_11"), (.int 0)])),
    .setItem n!"d" (.str n!"C8_ss") (.bin .mul (.bin .div (.var n!"preC8") (.idx (.var n!"parameters") (.str n!"m_s"))) (.meth (.var n!"C") n!"get" es![(.str n!"dG_22"), (.int 0)])),
    .setItem n!"d" (.str n!"C8_bb") (.bin .mul (.bin .div (.var n!"preC8") (.idx (.var n!"parameters") (.str n!"m_b"))) (.meth (.var n!"C") n!"get" es![(.str n!"dG_33"), (.int 0)])),
    .setItem n!"d" (.str n!"C7_uu") (.bin .mul (.bin .div (.var n!"preC7") (.idx (.var n!"parameters") (.str n!"m_u"))) (.meth (.var n!"C") n!"get" es![(.str n!"ugamma_11"), (.int 0)])),
    .setItem n!"d" (.str n!"C7_cc") (.bin .mul (.bin .div (.var n!"preC7") (.idx (.var n!"parameters") (.str n!"m_c"))) (.meth (.var n!"C") n!"get" es![(.str n!"ugamma_22"), (.int 0)])),
    .setItem n!"d" (.str n!"C7_dd") (.bin .mul (.bin .div (.var n!"preC7") (.idx (.var n!"parameters") (.str n!"m_d"))) (.meth (.var n!"C") n!"get" es![(.str n!"dgamma_11"), (.int 0)])),
    .setItem n!"d" (.str n!"C7_ss") (.bin .mul (.bin .div (.var n!"preC7") (.idx (.var n!"parameters") (.str n!"m_s"))) (.meth (.var n!"C") n!"get" es![(.str n!"dgamma_22"), (.int 0)])),
    .setItem n!"d" (.str n!"C7_bb") (.bin .mul (.bin .div (.var n!"preC7") (.idx (.var n!"parameters") (.str n!"m_b"))) (.meth (.var n!"C") n!"get" es![(.str n!"dgamma_33"), (.int 0)])),
    .setItem n!"d" (.str n!"C7_ee") (.bin .mul (.bin .div (.var n!"preC7") (.idx (.var n!"parameters") (.str n!"m_e"))) (.meth (.var n!"C") n!"get" es![(.str n!"egamma_11"), (.int 0)])),
    .setItem n!"d" (.str n!"C7_mumu") (.bin .mul (.bin .div (.var n!"preC7") (.idx (.var n!"parameters") (.str n!"m_mu"))) (.meth (.var n!"C") n!"get" es![(.str n!"egamma_22"), (.int 0)])),
    .setItem n!"d" (.str n!"C7_tautau") (.bin .mul (.bin .div (.var n!"preC7") (.idx (.var n!"parameters") (.str n!"m_tau"))) (.meth (.var n!"C") n!"get" es![(.str n!"egamma_33"), (.int 0)])),
    .assign n!"preGF" (.bin .div (.bin .div (.call n!"sqrt" es![(.int 2)]) (.idx (.var n!"parameters") (.str n!"GF"))) (.int 4)),
    .ret (.dcomp n!"k" n!"v" (.var n!"d") (.var n!"k") (.bin .mul (.var n!"preGF") (.var n!"v")))]⟩

/-- wet.py:1673-1697 `_Flavio_to_JMS_VII` -/
def fn_Flavio_to_JMS_VII : Fn := ⟨n!"_Flavio_to_JMS_VII", [n!"C", n!"parameters"],
  st![.assign n!"d" (.dict kv![
        ]),
    .assign n!"dtrans" (.call n!"load_table" es![.str n!"data/flavio_jms_vii.json"]),
    .for2 n!"cj" n!"cf" (.var n!"dtrans") st![.setItem n!"d" (.var n!"cj") (.meth (.var n!"C") n!"get" es![(.var n!"cf"), (.int 0)])],
    .assign n!"gs" (.call n!"sqrt" es![(.bin .mul (.bin .mul (.int 4) (.var n!"pi")) (.idx (.var n!"parameters") (.str n!"alpha_s")))]),
    .assign n!"e" (.call n!"sqrt" es![(.bin .mul (.bin .mul (.int 4) (.var n!"pi")) (.idx (.var n!"parameters") (.str n!"alpha_e")))]),
    .assign n!"preC7" (.bin .div (.bin .mul (.int 16) (.bin .pow (.var n!"pi") (.int 2))) (.var n!"e")),
    .assign n!"preC8" (.bin .div (.bin .mul (.int 16) (.bin .pow (.var n!"pi") (.int 2))) (.var n!"gs")),
    .setItem n!"d" (.str n!"uG_11") (.bin .mul (.bin .div (.idx (.var n!"parameters") (.str n!"m_u")) (.var n!"preC8")) (.meth (.var n!"C") n!"get" es![(.str n!"C8_uu"), (.int 0)])),
    .setItem n!"d" (.str n!"uG_22") (.bin .mul (.bin .div (.idx (.var n!"parameters") (.str n!"m_c")) (.var n!"preC8")) (.meth (.var n!"C") n!"get" es![(.str n!"C8_cc"), (.int 0)])),
    .setItem n!"d" (.str n!"dG_11") (.bin .mul (.bin .div (.idx (.var n!"parameters") (.str n!"m_d")) (.var n!"preC8")) (.meth (.var n!"C") n!"get" es![(.str n!"C8_dd"), (.int 0)])),
    .setItem n!"d" (.str n!"dG_22") (.bin .mul (.bin .div (.idx (.var n!"parameters") (.str n!"m_s")) (.var n!"preC8")) (.meth (.var n!"C") n!"get" es![(.str n!"C8_ss"), (.int 0)])),
    .setItem n!"d" (.str n!"dG_33") (.bin .mul (.bin .div (.idx (.var n!"parameters") (.str n!"m_b")) (.var n!"preC8")) (.meth (.var n!"C") n!"get" es![(.str n!"C8_bb"), (.int 0)])),
    .setItem n!"d" (.str n!"ugamma_11") (.bin .mul (.bin .div (.idx (.var n!"parameters") (.str n!"m_u")) (.var n!"preC7")) (.meth (.var n!"C") n!"get" es![(.str n!"C7_uu"), (.int 0)])),
    .setItem n!"d" (.str n!"ugamma_22") (.bin .mul (.bin .div (.idx (.var n!"parameters") (.str n!"m_c")) (.var n!"preC7")) (.meth (.var n!"C") n!"get" es![(.str n!"C7_cc"), (.int 0)])),
    .setItem n!"d" (.str n!"dgamma_11") (.bin .mul (.bin .div (.idx (.var n!"parameters") (.str n!"m_d")) (.var n!"preC7")) (.meth (.var n!"C") n!"get" es![(.str n!"C7_dd"), (.int 0)])),
    .setItem n!"d" (.str n!"dgamma_22") (.bin .mul (.bin .div (.idx (.var n!"parameters") (.str n!"m_s")) (.var n!"preC7")) (.meth (.var n!"C") n!"get" es![(.str n!"C7_ss"), (.int 0)])),
    .setItem n!"d" (.str n!"dgamma_33") (.bin .mul (.bin .div (.idx (.var n!"parameters") (.str n!"m_b")) (.var n!"preC7")) (.meth (.var n!"C") n!"get" es![(.str n!"C7_bb"), (.int 0)])),
    .setItem n!"d" (.str n!"egamma_11") (.bin .mul (.bin .div (.idx (.var n!"parameters") (.str n!"m_e")) (.var n!"preC7")) (.meth (.var n!"C") n!"get" es![(.str n!"C7_ee"), (.int 0)])),
    .setItem n!"d" (.str n!"egamma_22") (.bin .mul (.bin .div (.idx (.var n!"parameters") (.str n!"m_mu")) (.var n!"preC7")) (.meth (.var n!"C") n!"get" es![(.str n!"C7_mumu"), (.int 0)])),
    .setItem n!"d" (.str n!"egamma_33") (.bin .mul (.bin .div (.idx (.var n!"parameters") (.str n!"m_tau")) (.var n!"preC7")) (.meth (.var n!"C") n!"get" es![(.str n!"C7_tautau"), (.int 0)])),
    .assign n!"preGF" (.bin .div (.bin .div (.call n!"sqrt" es![(.int 2)]) (.idx (.var n!"parameters") (.str n!"GF"))) (.int 4)),
    .ret (.dcomp n!"k" n!"v" (.var n!"d") (.var n!"k") (.bin .div (.var n!"v") (.var n!"preGF")))]⟩

/-- wet.py:1727-1765 `JMS_to_EOS` -/
def fn_JMS_to_EOS : Fn := ⟨n!"JMS_to_EOS", [n!"Cflat", n!"scale", n!"parameters", n!"sectors"],
  st![.assign n!"p" (.call n!"get_parameters" es![(.var n!"scale"), (.int 5), (.var n!"parameters")]),
    .assign n!"C" (.call n!"JMS_to_array" es![(.var n!"Cflat"), (.var n!"sectors")]),
    .assign n!"d" (.dict kv![
        ]),
    .for n!"qq" (.list es![(.str n!"sb")]) st![.update n!"d" (.call n!"_JMS_to_EOS_I" es![(.var n!"C"), (.var n!"qq"), (.var n!"p")])],
    .for n!"l" (.list es![(.str n!"e"), (.str n!"mu"), (.str n!"tau")]) st![.update n!"d" (.call n!"_BernII_to_EOS_II" es![(.call n!"_JMS_to_Bern_II" es![(.var n!"C"), (.bin .add (.bin .add (.bin .add (.bin .add (.str n!"ub") (.str n!"l_")) (.var n!"l")) (.str n!"nu_")) (.var n!"l"))]), (.bin .add (.bin .add (.bin .add (.bin .add (.str n!"ub") (.str n!"l_")) (.var n!"l")) (.str n!"nu_")) (.var n!"l")), (.var n!"p")]),
      .update n!"d" (.call n!"_BernII_to_EOS_II" es![(.call n!"_JMS_to_Bern_II" es![(.var n!"C"), (.bin .add (.bin .add (.bin .add (.bin .add (.str n!"cb") (.str n!"l_")) (.var n!"l")) (.str n!"nu_")) (.var n!"l"))]), (.bin .add (.bin .add (.bin .add (.bin .add (.str n!"cb") (.str n!"l_")) (.var n!"l")) (.str n!"nu_")) (.var n!"l")), (.var n!"p")])],
    .for n!"qqqq" (.list es![(.str n!"sbcu"), (.str n!"dbcu")]) st![.update n!"d" (.call n!"_Fierz_to_EOS_III" es![(.call n!"_JMS_to_Fierz_III_IV_V" es![(.var n!"C"), (.var n!"qqqq")]), (.var n!"qqqq"), (.var n!"p")])],
    .assign n!"Fsbuu" (.call n!"_JMS_to_Fierz_III_IV_V" es![(.var n!"C"), (.str n!"sbuu")]),
    .assign n!"Fsbdd" (.call n!"_JMS_to_Fierz_III_IV_V" es![(.var n!"C"), (.str n!"sbdd")]),
    .assign n!"Fsbcc" (.call n!"_JMS_to_Fierz_III_IV_V" es![(.var n!"C"), (.str n!"sbcc")]),
    .assign n!"Fsbss" (.call n!"_JMS_to_Fierz_III_IV_V" es![(.var n!"C"), (.str n!"sbss")]),
    .assign n!"Fsbbb" (.call n!"_JMS_to_Fierz_III_IV_V" es![(.var n!"C"), (.str n!"sbbb")]),
    .update n!"d" (.call n!"_Fierz_to_EOS_V" es![(.var n!"Fsbuu"), (.var n!"Fsbdd"), (.var n!"Fsbcc"), (.var n!"Fsbss"), (.var n!"Fsbbb"), (.var n!"p")]),
    .update n!"d" (.call n!"Fierz_to_EOS_lep" es![(.call n!"JMS_to_Fierz_lep" es![(.var n!"C"), (.str n!"sbl_enu_e")]), (.str n!"sbl_enu_e"), (.var n!"p")]),
    .update n!"d" (.call n!"Fierz_to_EOS_lep" es![(.call n!"JMS_to_Fierz_lep" es![(.var n!"C"), (.str n!"sbl_munu_mu")]), (.str n!"sbl_munu_mu"), (.var n!"p")]),
    .update n!"d" (.call n!"Fierz_to_EOS_chrom" es![(.call n!"JMS_to_Fierz_chrom" es![(.var n!"C"), (.str n!"sb")]), (.str n!"sb"), (.var n!"p")]),
    .ret (.var n!"d")]⟩

/-- wet.py:1768-1863 `JMS_to_flavio` -/
def fn_JMS_to_flavio : Fn := ⟨n!"JMS_to_flavio", [n!"Cflat", n!"scale", n!"parameters", n!"sectors"],
  st![.assign n!"p" (.call n!"get_parameters" es![(.var n!"scale"), (.int 5), (.var n!"parameters")]),
    .assign n!"C" (.call n!"JMS_to_array" es![(.var n!"Cflat"), (.var n!"sectors")]),
    .assign n!"d" (.dict kv![
        ]),
    .for n!"qq" (.list es![(.str n!"sb"), (.str n!"db"), (.str n!"ds"), (.str n!"cu")]) st![.ite (.or (.bin .is (.var n!"sectors") .none) (.or (.bin .isin (.bin .mul (.int 2) (.var n!"qq")) (.var n!"sectors")) (.and (.bin .eq (.var n!"qq") (.str n!"ds")) (.bin .isin (.bin .mul (.int 2) (.str n!"sd")) (.var n!"sectors"))))) st![.update n!"d" (.call n!"_BernI_to_Flavio_I" es![(.call n!"_JMS_to_Bern_I" es![(.var n!"C"), (.var n!"qq")]), (.var n!"qq")])] st![]],
    .for n!"l" (.meth (.var n!"lflav") n!"keys" es![]) st![.for n!"lp" (.meth (.var n!"lflav") n!"keys" es![]) st![.for n!"qq" (.list es![(.str n!"cb"), (.str n!"ub"), (.str n!"us"), (.str n!"cs"), (.str n!"cd"), (.str n!"ud")]) st![.ite (.or (.bin .is (.var n!"sectors") .none) (.bin .isin (.bin .add (.bin .add (.var n!"qq") (.var n!"l")) (.str n!"nu")) (.var n!"sectors"))) st![.update n!"d" (.call n!"_BernII_to_Flavio_II" es![(.call n!"_JMS_to_Bern_II" es![(.var n!"C"), (.bin .add (.bin .add (.bin .add (.bin .add (.var n!"qq") (.str n!"l_")) (.var n!"l")) (.str n!"nu_")) (.var n!"lp"))]), (.bin .add (.bin .add (.bin .add (.bin .add (.var n!"qq") (.str n!"l_")) (.var n!"l")) (.str n!"nu_")) (.var n!"lp")), (.var n!"p")])] st![]]]],
    .for n!"l" (.meth (.var n!"lflav") n!"keys" es![]) st![.for n!"lp" (.meth (.var n!"lflav") n!"keys" es![]) st![.ite (.or (.bin .is (.var n!"sectors") .none) (.bin .isin (.str n!"sbnunu") (.var n!"sectors"))) st![.update n!"d" (.call n!"Fierz_to_Flavio_nunu" es![(.call n!"JMS_to_Fierz_nunu" es![(.var n!"C"), (.bin .add (.bin .add (.bin .add (.bin .add (.str n!"sb") (.str n!"l_")) (.var n!"l")) (.str n!"nu_")) (.var n!"lp"))]), (.bin .add (.bin .add (.bin .add (.bin .add (.str n!"sb") (.str n!"l_")) (.var n!"l")) (.str n!"nu_")) (.var n!"lp")), (.var n!"p"), (.bool true)])] st![],
        .ite (.or (.bin .is (.var n!"sectors") .none) (.bin .isin (.str n!"dbnunu") (.var n!"sectors"))) st![.update n!"d" (.call n!"Fierz_to_Flavio_nunu" es![(.call n!"JMS_to_Fierz_nunu" es![(.var n!"C"), (.bin .add (.bin .add (.bin .add (.bin .add (.str n!"db") (.str n!"l_")) (.var n!"l")) (.str n!"nu_")) (.var n!"lp"))]), (.bin .add (.bin .add (.bin .add (.bin .add (.str n!"db") (.str n!"l_")) (.var n!"l")) (.str n!"nu_")) (.var n!"lp")), (.var n!"p"), (.bool true)])] st![],
        .ite (.or (.bin .is (.var n!"sectors") .none) (.bin .isin (.str n!"sdnunu") (.var n!"sectors"))) st![.update n!"d" (.call n!"Fierz_to_Flavio_nunu" es![(.call n!"JMS_to_Fierz_nunu" es![(.var n!"C"), (.bin .add (.bin .add (.bin .add (.bin .add (.str n!"ds") (.str n!"l_")) (.var n!"l")) (.str n!"nu_")) (.var n!"lp"))]), (.bin .add (.bin .add (.bin .add (.bin .add (.str n!"ds") (.str n!"l_")) (.var n!"l")) (.str n!"nu_")) (.var n!"lp")), (.var n!"p"), (.bool true)])] st![],
        .ite (.or (.bin .is (.var n!"sectors") .none) (.or (.and (.bin .isin (.str n!"sb") (.var n!"sectors")) (.bin .eq (.var n!"l") (.var n!"lp"))) (.bin .isin (.bin .add (.bin .add (.str n!"sb") (.var n!"l")) (.var n!"lp")) (.var n!"sectors")))) st![.update n!"d" (.call n!"Fierz_to_Flavio_lep" es![(.call n!"JMS_to_Fierz_lep" es![(.var n!"C"), (.bin .add (.bin .add (.bin .add (.bin .add (.str n!"sb") (.str n!"l_")) (.var n!"l")) (.str n!"nu_")) (.var n!"lp"))]), (.bin .add (.bin .add (.bin .add (.bin .add (.str n!"sb") (.str n!"l_")) (.var n!"l")) (.str n!"nu_")) (.var n!"lp")), (.var n!"p"), (.bool true)])] st![],
        .ite (.or (.bin .is (.var n!"sectors") .none) (.or (.and (.bin .isin (.str n!"db") (.var n!"sectors")) (.bin .eq (.var n!"l") (.var n!"lp"))) (.bin .isin (.bin .add (.bin .add (.str n!"db") (.var n!"l")) (.var n!"lp")) (.var n!"sectors")))) st![.update n!"d" (.call n!"Fierz_to_Flavio_lep" es![(.call n!"JMS_to_Fierz_lep" es![(.var n!"C"), (.bin .add (.bin .add (.bin .add (.bin .add (.str n!"db") (.str n!"l_")) (.var n!"l")) (.str n!"nu_")) (.var n!"lp"))]), (.bin .add (.bin .add (.bin .add (.bin .add (.str n!"db") (.str n!"l_")) (.var n!"l")) (.str n!"nu_")) (.var n!"lp")), (.var n!"p"), (.bool true)])] st![],
        .ite (.or (.bin .is (.var n!"sectors") .none) (.or (.and (.bin .isin (.str n!"sd") (.var n!"sectors")) (.bin .eq (.var n!"l") (.var n!"lp"))) (.bin .isin (.bin .add (.bin .add (.str n!"sd") (.var n!"lp")) (.var n!"l")) (.var n!"sectors")))) st![.update n!"d" (.call n!"Fierz_to_Flavio_lep" es![(.call n!"JMS_to_Fierz_lep" es![(.var n!"C"), (.bin .add (.bin .add (.bin .add (.bin .add (.str n!"ds") (.str n!"l_")) (.var n!"l")) (.str n!"nu_")) (.var n!"lp"))]), (.bin .add (.bin .add (.bin .add (.bin .add (.str n!"ds") (.str n!"l_")) (.var n!"l")) (.str n!"nu_")) (.var n!"lp")), (.var n!"p"), (.bool true)])] st![],
        .ite (.or (.bin .is (.var n!"sectors") .none) (.and (.bin .isin (.str n!"cu") (.var n!"sectors")) (.bin .eq (.var n!"l") (.var n!"lp")))) st![.ite (.bin .eq (.var n!"l") (.var n!"lp")) st![.update n!"d" (.call n!"Fierz_to_Flavio_lep" es![(.call n!"JMS_to_Fierz_lep" es![(.var n!"C"), (.bin .add (.bin .add (.bin .add (.bin .add (.str n!"uc") (.str n!"l_")) (.var n!"l")) (.str n!"nu_")) (.var n!"lp"))]), (.bin .add (.bin .add (.bin .add (.bin .add (.str n!"uc") (.str n!"l_")) (.var n!"l")) (.str n!"nu_")) (.var n!"lp")), (.var n!"p"), (.bool true)])] st![]] st![]]],
    .for n!"qq1" (.list es![(.str n!"ds"), (.str n!"sb"), (.str n!"db"), (.str n!"uc")]) st![.ite (.or (.bin .is (.var n!"sectors") .none) (.or (.bin .isin (.var n!"qq1") (.var n!"sectors")) (.or (.and (.bin .eq (.var n!"qq1") (.str n!"ds")) (.bin .isin (.str n!"sd") (.var n!"sectors"))) (.and (.bin .eq (.var n!"qq1") (.str n!"uc")) (.bin .isin (.str n!"cu") (.var n!"sectors")))))) st![.for n!"qq2" (.list es![(.str n!"uu"), (.str n!"dd"), (.str n!"ss"), (.str n!"cc"), (.str n!"bb")]) st![.assign n!"qqqq" (.bin .add (.var n!"qq1") (.var n!"qq2")),
          .update n!"d" (.call n!"_Fierz_to_Flavio_V" es![(.call n!"_JMS_to_Fierz_III_IV_V" es![(.var n!"C"), (.var n!"qqqq")]), (.var n!"qqqq"), (.var n!"p")])]] st![]],
    .ite (.or (.bin .is (.var n!"sectors") .none) (.bin .isin (.str n!"sb") (.var n!"sectors"))) st![.update n!"d" (.call n!"Fierz_to_Flavio_chrom" es![(.call n!"JMS_to_Fierz_chrom" es![(.var n!"C"), (.str n!"sb")]), (.str n!"sb"), (.var n!"p")])] st![],
    .ite (.or (.bin .is (.var n!"sectors") .none) (.bin .isin (.str n!"db") (.var n!"sectors"))) st![.update n!"d" (.call n!"Fierz_to_Flavio_chrom" es![(.call n!"JMS_to_Fierz_chrom" es![(.var n!"C"), (.str n!"db")]), (.str n!"db"), (.var n!"p")])] st![],
    .ite (.or (.bin .is (.var n!"sectors") .none) (.bin .isin (.str n!"sd") (.var n!"sectors"))) st![.update n!"d" (.call n!"Fierz_to_Flavio_chrom" es![(.call n!"JMS_to_Fierz_chrom" es![(.var n!"C"), (.str n!"ds")]), (.str n!"ds"), (.var n!"p")])] st![],
    .ite (.or (.bin .is (.var n!"sectors") .none) (.bin .isin (.str n!"cu") (.var n!"sectors"))) st![.update n!"d" (.call n!"Fierz_to_Flavio_chrom" es![(.call n!"JMS_to_Fierz_chrom" es![(.var n!"C"), (.str n!"uc")]), (.str n!"uc"), (.var n!"p")])] st![],
    .ite (.or (.bin .is (.var n!"sectors") .none) (.or (.bin .isin (.str n!"dF=0") (.var n!"sectors")) (.bin .isin (.str n!"ffnunu") (.var n!"sectors")))) st![.update n!"d" (.call n!"_JMS_to_Flavio_VII" es![(.var n!"Cflat"), (.var n!"p")])] st![],
    .ret (.var n!"d")]⟩

/-- wet.py:1866-1925 `Bern_to_flavio` -/
def fn_Bern_to_flavio : Fn := ⟨n!"Bern_to_flavio", [n!"C_incomplete", n!"scale", n!"parameters", n!"sectors"],
  st![.assign n!"p" (.call n!"get_parameters" es![(.var n!"scale"), (.int 5), (.var n!"parameters")]),
    .pass,
    .assign n!"C" (.call n!"fill_zeros" es![(.var n!"C_incomplete")]),
    .assign n!"d" (.dict kv![
        ]),
    .for n!"qq" (.list es![(.str n!"sb"), (.str n!"db"), (.str n!"ds"), (.str n!"cu")]) st![.update n!"d" (.call n!"_BernI_to_Flavio_I" es![(.var n!"C"), (.var n!"qq")])],
    .for n!"l" (.meth (.var n!"lflav") n!"keys" es![]) st![.for n!"lp" (.meth (.var n!"lflav") n!"keys" es![]) st![.for n!"qq" (.list es![(.str n!"cb"), (.str n!"ub"), (.str n!"us"), (.str n!"cs"), (.str n!"cd"), (.str n!"ud")]) st![.update n!"d" (.call n!"_BernII_to_Flavio_II" es![(.var n!"C"), (.bin .add (.bin .add (.bin .add (.bin .add (.var n!"qq") (.str n!"l_")) (.var n!"l")) (.str n!"nu_")) (.var n!"lp")), (.var n!"p")])]]],
    .for n!"l" (.meth (.var n!"lflav") n!"keys" es![]) st![.for n!"lp" (.meth (.var n!"lflav") n!"keys" es![]) st![.update n!"d" (.call n!"Fierz_to_Flavio_lep" es![(.call n!"Bern_to_Fierz_lep" es![(.var n!"C"), (.bin .add (.bin .add (.bin .add (.bin .add (.str n!"sb") (.str n!"l_")) (.var n!"l")) (.str n!"nu_")) (.var n!"lp"))]), (.bin .add (.bin .add (.bin .add (.bin .add (.str n!"sb") (.str n!"l_")) (.var n!"l")) (.str n!"nu_")) (.var n!"lp")), (.var n!"p"), (.bool true)]),
        .update n!"d" (.call n!"Fierz_to_Flavio_lep" es![(.call n!"Bern_to_Fierz_lep" es![(.var n!"C"), (.bin .add (.bin .add (.bin .add (.bin .add (.str n!"db") (.str n!"l_")) (.var n!"l")) (.str n!"nu_")) (.var n!"lp"))]), (.bin .add (.bin .add (.bin .add (.bin .add (.str n!"db") (.str n!"l_")) (.var n!"l")) (.str n!"nu_")) (.var n!"lp")), (.var n!"p"), (.bool true)]),
        .update n!"d" (.call n!"Fierz_to_Flavio_lep" es![(.call n!"Bern_to_Fierz_lep" es![(.var n!"C"), (.bin .add (.bin .add (.bin .add (.bin .add (.str n!"ds") (.str n!"l_")) (.var n!"l")) (.str n!"nu_")) (.var n!"lp"))]), (.bin .add (.bin .add (.bin .add (.bin .add (.str n!"ds") (.str n!"l_")) (.var n!"l")) (.str n!"nu_")) (.var n!"lp")), (.var n!"p"), (.bool true)]),
        .update n!"d" (.call n!"Fierz_to_Flavio_nunu" es![(.call n!"Bern_to_Fierz_nunu" es![(.var n!"C"), (.bin .add (.bin .add (.bin .add (.bin .add (.str n!"sb") (.str n!"l_")) (.var n!"l")) (.str n!"nu_")) (.var n!"lp"))]), (.bin .add (.bin .add (.bin .add (.bin .add (.str n!"sb") (.str n!"l_")) (.var n!"l")) (.str n!"nu_")) (.var n!"lp")), (.var n!"p"), (.bool true)]),
        .update n!"d" (.call n!"Fierz_to_Flavio_nunu" es![(.call n!"Bern_to_Fierz_nunu" es![(.var n!"C"), (.bin .add (.bin .add (.bin .add (.bin .add (.str n!"db") (.str n!"l_")) (.var n!"l")) (.str n!"nu_")) (.var n!"lp"))]), (.bin .add (.bin .add (.bin .add (.bin .add (.str n!"db") (.str n!"l_")) (.var n!"l")) (.str n!"nu_")) (.var n!"lp")), (.var n!"p"), (.bool true)]),
        .update n!"d" (.call n!"Fierz_to_Flavio_nunu" es![(.call n!"Bern_to_Fierz_nunu" es![(.var n!"C"), (.bin .add (.bin .add (.bin .add (.bin .add (.str n!"ds") (.str n!"l_")) (.var n!"l")) (.str n!"nu_")) (.var n!"lp"))]), (.bin .add (.bin .add (.bin .add (.bin .add (.str n!"ds") (.str n!"l_")) (.var n!"l")) (.str n!"nu_")) (.var n!"lp")), (.var n!"p"), (.bool true)])]],
    .for n!"qq1" (.list es![(.str n!"ds"), (.str n!"sb"), (.str n!"db")]) st![.for n!"qq2" (.list es![(.str n!"uu"), (.str n!"dd"), (.str n!"ss"), (.str n!"cc"), (.str n!"bb")]) st![.assign n!"qqqq" (.bin .add (.var n!"qq1") (.var n!"qq2")),
        .update n!"d" (.call n!"_Fierz_to_Flavio_V" es![(.call n!"_Bern_to_Fierz_III_IV_V" es![(.var n!"C"), (.var n!"qqqq")]), (.var n!"qqqq"), (.var n!"p")])]],
    .update n!"d" (.call n!"Fierz_to_Flavio_chrom" es![(.call n!"Bern_to_Fierz_chrom" es![(.var n!"C"), (.str n!"sb"), (.var n!"p")]), (.str n!"sb"), (.var n!"p")]),
    .update n!"d" (.call n!"Fierz_to_Flavio_chrom" es![(.call n!"Bern_to_Fierz_chrom" es![(.var n!"C"), (.str n!"db"), (.var n!"p")]), (.str n!"db"), (.var n!"p")]),
    .update n!"d" (.call n!"Fierz_to_Flavio_chrom" es![(.call n!"Bern_to_Fierz_chrom" es![(.var n!"C"), (.str n!"ds"), (.var n!"p")]), (.str n!"ds"), (.var n!"p")]),
    .assign n!"prefactor" (.bin .div (.bin .div (.call n!"sqrt" es![(.int 2)]) (.idx (.var n!"p") (.str n!"GF"))) (.int 4)),
    .ret (.dcomp n!"k" n!"v" (.var n!"d") (.var n!"k") (.bin .div (.var n!"v") (.var n!"prefactor")))]⟩

/-- wet.py:1929-1990 `flavio_to_Bern` -/
def fn_flavio_to_Bern : Fn := ⟨n!"flavio_to_Bern", [n!"C_incomplete", n!"scale", n!"parameters", n!"sectors"],
  st![.assign n!"p" (.call n!"get_parameters" es![(.var n!"scale"), (.int 5), (.var n!"parameters")]),
    .pass,
    .assign n!"C" (.call n!"fill_zeros" es![(.var n!"C_incomplete")]),
    .assign n!"d" (.dict kv![
        ]),
    .for n!"qq" (.list es![(.str n!"bs"), (.str n!"bd"), (.str n!"sd"), (.str n!"uc")]) st![.update n!"d" (.call n!"_FlavioI_to_Bern_I" es![(.var n!"C"), (.var n!"qq")])],
    .for n!"l" (.meth (.var n!"lflav") n!"keys" es![]) st![.for n!"lp" (.meth (.var n!"lflav") n!"keys" es![]) st![.for n!"qq" (.list es![(.str n!"cb"), (.str n!"ub"), (.str n!"us"), (.str n!"cs"), (.str n!"cd"), (.str n!"ud")]) st![.update n!"d" (.call n!"_FlavioII_to_BernII" es![(.var n!"C"), (.bin .add (.bin .add (.bin .add (.bin .add (.var n!"qq") (.str n!"l_")) (.var n!"l")) (.str n!"nu_")) (.var n!"lp")), (.var n!"p")])]]],
    .for n!"l" (.meth (.var n!"lflav") n!"keys" es![]) st![.for n!"lp" (.meth (.var n!"lflav") n!"keys" es![]) st![.update n!"d" (.call n!"Fierz_to_Bern_lep" es![(.call n!"Flavio_to_Fierz_lep" es![(.var n!"C"), (.bin .add (.bin .add (.bin .add (.bin .add (.str n!"sb") (.str n!"l_")) (.var n!"l")) (.str n!"nu_")) (.var n!"lp")), (.var n!"p"), (.bool true)]), (.bin .add (.bin .add (.bin .add (.bin .add (.str n!"sb") (.str n!"l_")) (.var n!"l")) (.str n!"nu_")) (.var n!"lp"))]),
        .update n!"d" (.call n!"Fierz_to_Bern_lep" es![(.call n!"Flavio_to_Fierz_lep" es![(.var n!"C"), (.bin .add (.bin .add (.bin .add (.bin .add (.str n!"db") (.str n!"l_")) (.var n!"l")) (.str n!"nu_")) (.var n!"lp")), (.var n!"p"), (.bool true)]), (.bin .add (.bin .add (.bin .add (.bin .add (.str n!"db") (.str n!"l_")) (.var n!"l")) (.str n!"nu_")) (.var n!"lp"))]),
        .ite (.bin .eq (.var n!"l") (.var n!"lp")) st![.update n!"d" (.call n!"Fierz_to_Bern_lep" es![(.call n!"Flavio_to_Fierz_lep" es![(.var n!"C"), (.bin .add (.bin .add (.bin .add (.bin .add (.str n!"ds") (.str n!"l_")) (.var n!"l")) (.str n!"nu_")) (.var n!"lp")), (.var n!"p"), (.bool true)]), (.bin .add (.bin .add (.bin .add (.bin .add (.str n!"ds") (.str n!"l_")) (.var n!"l")) (.str n!"nu_")) (.var n!"lp"))])] st![],
        .update n!"d" (.call n!"Fierz_to_Bern_nunu" es![(.call n!"Flavio_to_Fierz_nunu" es![(.var n!"C"), (.bin .add (.bin .add (.bin .add (.bin .add (.str n!"sb") (.str n!"l_")) (.var n!"l")) (.str n!"nu_")) (.var n!"lp")), (.var n!"p"), (.bool true)]), (.bin .add (.bin .add (.bin .add (.bin .add (.str n!"sb") (.str n!"l_")) (.var n!"l")) (.str n!"nu_")) (.var n!"lp"))]),
        .update n!"d" (.call n!"Fierz_to_Bern_nunu" es![(.call n!"Flavio_to_Fierz_nunu" es![(.var n!"C"), (.bin .add (.bin .add (.bin .add (.bin .add (.str n!"db") (.str n!"l_")) (.var n!"l")) (.str n!"nu_")) (.var n!"lp")), (.var n!"p"), (.bool true)]), (.bin .add (.bin .add (.bin .add (.bin .add (.str n!"db") (.str n!"l_")) (.var n!"l")) (.str n!"nu_")) (.var n!"lp"))]),
        .update n!"d" (.call n!"Fierz_to_Bern_nunu" es![(.call n!"Flavio_to_Fierz_nunu" es![(.var n!"C"), (.bin .add (.bin .add (.bin .add (.bin .add (.str n!"ds") (.str n!"l_")) (.var n!"l")) (.str n!"nu_")) (.var n!"lp")), (.var n!"p"), (.bool true)]), (.bin .add (.bin .add (.bin .add (.bin .add (.str n!"ds") (.str n!"l_")) (.var n!"l")) (.str n!"nu_")) (.var n!"lp"))])]],
    .for n!"qq1" (.list es![(.str n!"ds"), (.str n!"sb"), (.str n!"db")]) st![.for n!"qq2" (.list es![(.str n!"uu"), (.str n!"dd"), (.str n!"ss"), (.str n!"cc"), (.str n!"bb")]) st![.assign n!"qqqq" (.bin .add (.var n!"qq1") (.var n!"qq2")),
        .update n!"d" (.call n!"_Fierz_to_Bern_III_IV_V" es![(.call n!"_Flavio_to_Fierz_V" es![(.var n!"C"), (.var n!"qqqq"), (.var n!"p")]), (.var n!"qqqq")])]],
    .update n!"d" (.call n!"Fierz_to_Bern_chrom" es![(.call n!"Flavio_to_Fierz_chrom" es![(.var n!"C"), (.str n!"sb"), (.var n!"p")]), (.str n!"sb"), (.var n!"p")]),
    .update n!"d" (.call n!"Fierz_to_Bern_chrom" es![(.call n!"Flavio_to_Fierz_chrom" es![(.var n!"C"), (.str n!"db"), (.var n!"p")]), (.str n!"db"), (.var n!"p")]),
    .update n!"d" (.call n!"Fierz_to_Bern_chrom" es![(.call n!"Flavio_to_Fierz_chrom" es![(.var n!"C"), (.str n!"ds"), (.var n!"p")]), (.str n!"ds"), (.var n!"p")]),
    .assign n!"prefactor" (.bin .div (.bin .div (.call n!"sqrt" es![(.int 2)]) (.idx (.var n!"p") (.str n!"GF"))) (.int 4)),
    .ret (.dcomp n!"k" n!"v" (.var n!"d") (.var n!"k") (.bin .mul (.var n!"prefactor") (.var n!"v")))]⟩

/-- wet.py:1992-2008 `JMS_to_FormFlavor` -/
def fn_JMS_to_FormFlavor : Fn := ⟨n!"JMS_to_FormFlavor", [n!"Cflat", n!"scale", n!"parameters", n!"sectors"],
  st![.assign n!"p" (.call n!"get_parameters" es![(.var n!"scale"), (.int 5), (.var n!"parameters")]),
    .assign n!"C" (.call n!"JMS_to_array" es![(.var n!"Cflat"), (.var n!"sectors")]),
    .assign n!"d" (.dict kv![
        ]),
    .for n!"qq" (.list es![(.str n!"sb"), (.str n!"db"), (.str n!"ds"), (.str n!"cu")]) st![.update n!"d" (.call n!"_BernI_to_FormFlavor_I" es![(.call n!"_JMS_to_Bern_I" es![(.var n!"C"), (.var n!"qq")]), (.var n!"qq")])],
    .update n!"d" (.call n!"JMS_to_FormFlavor_lep" es![(.var n!"C"), (.str n!"bs")]),
    .update n!"d" (.call n!"JMS_to_FormFlavor_lep" es![(.var n!"C"), (.str n!"bd")]),
    .for n!"ind" (.list es![(.str n!"sb"), (.str n!"db"), (.str n!"uu"), (.str n!"dd"), (.str n!"mt"), (.str n!"em"), (.str n!"et")]) st![.update n!"d" (.call n!"JMS_to_FormFlavor_chrom" es![(.var n!"C"), (.var n!"ind"), (.var n!"p")])],
    .ret (.var n!"d")]⟩

/-- wet.py:2011-2066 `JMS_to_Bern` -/
def fn_JMS_to_Bern : Fn := ⟨n!"JMS_to_Bern", [n!"Cflat", n!"scale", n!"parameters", n!"sectors"],
  st![.assign n!"p" (.call n!"get_parameters" es![(.var n!"scale"), (.int 5), (.var n!"parameters")]),
    .assign n!"C" (.call n!"JMS_to_array" es![(.var n!"Cflat"), (.var n!"sectors")]),
    .assign n!"d" (.dict kv![
        ]),
    .for n!"qq" (.list es![(.str n!"sb"), (.str n!"db"), (.str n!"ds"), (.str n!"cu")]) st![.update n!"d" (.call n!"_JMS_to_Bern_I" es![(.var n!"C"), (.var n!"qq")])],
    .for n!"l" (.meth (.var n!"lflav") n!"keys" es![]) st![.for n!"lp" (.meth (.var n!"lflav") n!"keys" es![]) st![.for n!"qq" (.list es![(.str n!"cb"), (.str n!"ub"), (.str n!"us"), (.str n!"cs"), (.str n!"cd"), (.str n!"ud")]) st![.update n!"d" (.call n!"_JMS_to_Bern_II" es![(.var n!"C"), (.bin .add (.bin .add (.bin .add (.bin .add (.var n!"qq") (.str n!"l_")) (.var n!"l")) (.str n!"nu_")) (.var n!"lp"))])]]],
    .for n!"u1" (.meth (.var n!"uflav") n!"keys" es![]) st![.for n!"u2" (.meth (.var n!"uflav") n!"keys" es![]) st![.update n!"d" (.call n!"_Fierz_to_Bern_III_IV_V" es![(.call n!"_JMS_to_Fierz_III_IV_V" es![(.var n!"C"), (.bin .add (.bin .add (.str n!"sb") (.var n!"u1")) (.var n!"u2"))]), (.bin .add (.bin .add (.str n!"sb") (.var n!"u1")) (.var n!"u2"))]),
        .update n!"d" (.call n!"_Fierz_to_Bern_III_IV_V" es![(.call n!"_JMS_to_Fierz_III_IV_V" es![(.var n!"C"), (.bin .add (.bin .add (.str n!"db") (.var n!"u1")) (.var n!"u2"))]), (.bin .add (.bin .add (.str n!"db") (.var n!"u1")) (.var n!"u2"))]),
        .update n!"d" (.call n!"_Fierz_to_Bern_III_IV_V" es![(.call n!"_JMS_to_Fierz_III_IV_V" es![(.var n!"C"), (.bin .add (.bin .add (.str n!"ds") (.var n!"u1")) (.var n!"u2"))]), (.bin .add (.bin .add (.str n!"ds") (.var n!"u1")) (.var n!"u2"))])]],
    .for n!"qqqq" (.list es![(.str n!"sbdd"), (.str n!"sbss"), (.str n!"dbdd"), (.str n!"dbss"), (.str n!"dbbb"), (.str n!"sbbb"), (.str n!"dbds"), (.str n!"sbsd"), (.str n!"dsbb"), (.str n!"dsss"), (.str n!"dsdd")]) st![.update n!"d" (.call n!"_Fierz_to_Bern_III_IV_V" es![(.call n!"_JMS_to_Fierz_III_IV_V" es![(.var n!"C"), (.var n!"qqqq")]), (.var n!"qqqq")])],
    .for n!"l" (.meth (.var n!"lflav") n!"keys" es![]) st![.for n!"lp" (.meth (.var n!"lflav") n!"keys" es![]) st![.update n!"d" (.call n!"Fierz_to_Bern_lep" es![(.call n!"JMS_to_Fierz_lep" es![(.var n!"C"), (.bin .add (.bin .add (.bin .add (.bin .add (.str n!"sb") (.str n!"l_")) (.var n!"l")) (.str n!"nu_")) (.var n!"lp"))]), (.bin .add (.bin .add (.bin .add (.bin .add (.str n!"sb") (.str n!"l_")) (.var n!"l")) (.str n!"nu_")) (.var n!"lp"))]),
        .update n!"d" (.call n!"Fierz_to_Bern_lep" es![(.call n!"JMS_to_Fierz_lep" es![(.var n!"C"), (.bin .add (.bin .add (.bin .add (.bin .add (.str n!"db") (.str n!"l_")) (.var n!"l")) (.str n!"nu_")) (.var n!"lp"))]), (.bin .add (.bin .add (.bin .add (.bin .add (.str n!"db") (.str n!"l_")) (.var n!"l")) (.str n!"nu_")) (.var n!"lp"))]),
        .update n!"d" (.call n!"Fierz_to_Bern_lep" es![(.call n!"JMS_to_Fierz_lep" es![(.var n!"C"), (.bin .add (.bin .add (.bin .add (.bin .add (.str n!"ds") (.str n!"l_")) (.var n!"l")) (.str n!"nu_")) (.var n!"lp"))]), (.bin .add (.bin .add (.bin .add (.bin .add (.str n!"ds") (.str n!"l_")) (.var n!"l")) (.str n!"nu_")) (.var n!"lp"))]),
        .update n!"d" (.call n!"Fierz_to_Bern_nunu" es![(.call n!"JMS_to_Fierz_nunu" es![(.var n!"C"), (.bin .add (.bin .add (.bin .add (.bin .add (.str n!"sb") (.str n!"l_")) (.var n!"l")) (.str n!"nu_")) (.var n!"lp"))]), (.bin .add (.bin .add (.bin .add (.bin .add (.str n!"sb") (.str n!"l_")) (.var n!"l")) (.str n!"nu_")) (.var n!"lp"))]),
        .update n!"d" (.call n!"Fierz_to_Bern_nunu" es![(.call n!"JMS_to_Fierz_nunu" es![(.var n!"C"), (.bin .add (.bin .add (.bin .add (.bin .add (.str n!"db") (.str n!"l_")) (.var n!"l")) (.str n!"nu_")) (.var n!"lp"))]), (.bin .add (.bin .add (.bin .add (.bin .add (.str n!"db") (.str n!"l_")) (.var n!"l")) (.str n!"nu_")) (.var n!"lp"))]),
        .update n!"d" (.call n!"Fierz_to_Bern_nunu" es![(.call n!"JMS_to_Fierz_nunu" es![(.var n!"C"), (.bin .add (.bin .add (.bin .add (.bin .add (.str n!"ds") (.str n!"l_")) (.var n!"l")) (.str n!"nu_")) (.var n!"lp"))]), (.bin .add (.bin .add (.bin .add (.bin .add (.str n!"ds") (.str n!"l_")) (.var n!"l")) (.str n!"nu_")) (.var n!"lp"))])]],
    .update n!"d" (.call n!"Fierz_to_Bern_chrom" es![(.call n!"JMS_to_Fierz_chrom" es![(.var n!"C"), (.str n!"sb")]), (.str n!"sb"), (.var n!"p")]),
    .update n!"d" (.call n!"Fierz_to_Bern_chrom" es![(.call n!"JMS_to_Fierz_chrom" es![(.var n!"C"), (.str n!"db")]), (.str n!"db"), (.var n!"p")]),
    .update n!"d" (.call n!"Fierz_to_Bern_chrom" es![(.call n!"JMS_to_Fierz_chrom" es![(.var n!"C"), (.str n!"ds")]), (.str n!"ds"), (.var n!"p")]),
    .assign n!"prefactor" (.bin .div (.bin .div (.call n!"sqrt" es![(.int 2)]) (.idx (.var n!"p") (.str n!"GF"))) (.int 4)),
    .ret (.dcomp n!"k" n!"v" (.var n!"d") (.var n!"k") (.bin .mul (.var n!"prefactor") (.var n!"v")))]⟩

/-- wet.py:2069-2122 `Bern_to_JMS` -/
def fn_Bern_to_JMS : Fn := ⟨n!"Bern_to_JMS", [n!"C_incomplete", n!"scale", n!"parameters", n!"sectors"],
  st![.assign n!"p" (.call n!"get_parameters" es![(.var n!"scale"), (.int 5), (.var n!"parameters")]),
    .pass,
    .assign n!"C" (.call n!"fill_zeros" es![(.var n!"C_incomplete")]),
    .assign n!"d" (.dict kv![
        ]),
    .for n!"qq" (.list es![(.str n!"sb"), (.str n!"db"), (.str n!"ds"), (.str n!"cu")]) st![.update n!"d" (.call n!"_Bern_to_JMS_I" es![(.var n!"C"), (.var n!"qq")])],
    .for n!"l" (.meth (.var n!"lflav") n!"keys" es![]) st![.for n!"lp" (.meth (.var n!"lflav") n!"keys" es![]) st![.for n!"qq" (.list es![(.str n!"cb"), (.str n!"ub"), (.str n!"us"), (.str n!"cs"), (.str n!"cd"), (.str n!"ud")]) st![.update n!"d" (.call n!"_Bern_to_JMS_II" es![(.var n!"C"), (.bin .add (.bin .add (.bin .add (.bin .add (.var n!"qq") (.str n!"l_")) (.var n!"l")) (.str n!"nu_")) (.var n!"lp"))])]]],
    .for n!"u1" (.meth (.var n!"uflav") n!"keys" es![]) st![.for n!"u2" (.meth (.var n!"uflav") n!"keys" es![]) st![.update n!"d" (.call n!"_Fierz_to_JMS_III_IV_V" es![(.call n!"_Bern_to_Fierz_III_IV_V" es![(.var n!"C"), (.bin .add (.bin .add (.str n!"sb") (.var n!"u1")) (.var n!"u2"))]), (.bin .add (.bin .add (.str n!"sb") (.var n!"u1")) (.var n!"u2"))]),
        .update n!"d" (.call n!"_Fierz_to_JMS_III_IV_V" es![(.call n!"_Bern_to_Fierz_III_IV_V" es![(.var n!"C"), (.bin .add (.bin .add (.str n!"db") (.var n!"u1")) (.var n!"u2"))]), (.bin .add (.bin .add (.str n!"db") (.var n!"u1")) (.var n!"u2"))]),
        .update n!"d" (.call n!"_Fierz_to_JMS_III_IV_V" es![(.call n!"_Bern_to_Fierz_III_IV_V" es![(.var n!"C"), (.bin .add (.bin .add (.str n!"ds") (.var n!"u1")) (.var n!"u2"))]), (.bin .add (.bin .add (.str n!"ds") (.var n!"u1")) (.var n!"u2"))])]],
    .for n!"qqqq" (.list es![(.str n!"sbdd"), (.str n!"sbss"), (.str n!"dbdd"), (.str n!"dbss"), (.str n!"dbbb"), (.str n!"sbbb"), (.str n!"dbds"), (.str n!"sbsd"), (.str n!"dsbb"), (.str n!"dsss"), (.str n!"dsdd")]) st![.update n!"d" (.call n!"_Fierz_to_JMS_III_IV_V" es![(.call n!"_Bern_to_Fierz_III_IV_V" es![(.var n!"C"), (.var n!"qqqq")]), (.var n!"qqqq")])],
    .for n!"l" (.meth (.var n!"lflav") n!"keys" es![]) st![.for n!"lp" (.meth (.var n!"lflav") n!"keys" es![]) st![.for n!"qq" (.list es![(.str n!"sb"), (.str n!"db"), (.str n!"ds")]) st![.update n!"d" (.call n!"Fierz_to_JMS_lep" es![(.call n!"Bern_to_Fierz_lep" es![(.var n!"C"), (.bin .add (.bin .add (.bin .add (.bin .add (.var n!"qq") (.str n!"l_")) (.var n!"l")) (.str n!"nu_")) (.var n!"lp"))]), (.bin .add (.bin .add (.bin .add (.bin .add (.var n!"qq") (.str n!"l_")) (.var n!"l")) (.str n!"nu_")) (.var n!"lp"))]),
          .update n!"d" (.call n!"Fierz_to_JMS_nunu" es![(.call n!"Bern_to_Fierz_nunu" es![(.var n!"C"), (.bin .add (.bin .add (.bin .add (.bin .add (.var n!"qq") (.str n!"l_")) (.var n!"l")) (.str n!"nu_")) (.var n!"lp"))]), (.bin .add (.bin .add (.bin .add (.bin .add (.var n!"qq") (.str n!"l_")) (.var n!"l")) (.str n!"nu_")) (.var n!"lp"))])]]],
    .for n!"qq" (.list es![(.str n!"sb"), (.str n!"db"), (.str n!"ds")]) st![.update n!"d" (.call n!"Fierz_to_JMS_chrom" es![(.call n!"Bern_to_Fierz_chrom" es![(.var n!"C"), (.var n!"qq"), (.var n!"p")]), (.var n!"qq")])],
    .assign n!"prefactor" (.bin .div (.bin .mul (.int 4) (.idx (.var n!"p") (.str n!"GF"))) (.call n!"sqrt" es![(.int 2)])),
    .ret (.dcomp n!"k" n!"v" (.var n!"d") (.var n!"k") (.bin .mul (.var n!"prefactor") (.var n!"v")))]⟩

/-- wet.py:2125-2217 `flavio_to_JMS` -/
def fn_flavio_to_JMS : Fn := ⟨n!"flavio_to_JMS", [n!"C_incomplete", n!"scale", n!"parameters", n!"sectors"],
  st![.assign n!"p" (.call n!"get_parameters" es![(.var n!"scale"), (.int 5), (.var n!"parameters")]),
    .pass,
    .assign n!"C" (.call n!"fill_zeros" es![(.var n!"C_incomplete")]),
    .assign n!"d" (.dict kv![
        ]),
    .for n!"qq" (.list es![(.str n!"bs"), (.str n!"bd"), (.str n!"sd"), (.str n!"uc")]) st![.assign n!"qqr" (.rev (.var n!"qq")),
      .ite (.or (.bin .is (.var n!"sectors") .none) (.or (.bin .isin (.bin .mul (.int 2) (.var n!"qqr")) (.var n!"sectors")) (.bin .isin (.bin .mul (.int 2) (.var n!"qq")) (.var n!"sectors")))) st![.update n!"d" (.call n!"_Bern_to_JMS_I" es![(.call n!"_FlavioI_to_Bern_I" es![(.var n!"C"), (.var n!"qq")]), (.var n!"qqr")])] st![]],
    .for n!"l" (.meth (.var n!"lflav") n!"keys" es![]) st![.for n!"lp" (.meth (.var n!"lflav") n!"keys" es![]) st![.for n!"qq" (.list es![(.str n!"cb"), (.str n!"ub"), (.str n!"us"), (.str n!"cs"), (.str n!"cd"), (.str n!"ud")]) st![.ite (.or (.bin .is (.var n!"sectors") .none) (.bin .isin (.bin .add (.bin .add (.var n!"qq") (.var n!"l")) (.str n!"nu")) (.var n!"sectors"))) st![.update n!"d" (.call n!"_Bern_to_JMS_II" es![(.call n!"_FlavioII_to_BernII" es![(.var n!"C"), (.bin .add (.bin .add (.bin .add (.bin .add (.var n!"qq") (.str n!"l_")) (.var n!"l")) (.str n!"nu_")) (.var n!"lp")), (.var n!"p")]), (.bin .add (.bin .add (.bin .add (.bin .add (.var n!"qq") (.str n!"l_")) (.var n!"l")) (.str n!"nu_")) (.var n!"lp"))])] st![]]]],
    .for n!"l" (.meth (.var n!"lflav") n!"keys" es![]) st![.for n!"lp" (.meth (.var n!"lflav") n!"keys" es![]) st![.ite (.or (.bin .is (.var n!"sectors") .none) (.or (.and (.bin .isin (.str n!"sb") (.var n!"sectors")) (.bin .eq (.var n!"l") (.var n!"lp"))) (.bin .isin (.bin .add (.bin .add (.str n!"sb") (.var n!"l")) (.var n!"lp")) (.var n!"sectors")))) st![.update n!"d" (.call n!"Fierz_to_JMS_lep" es![(.call n!"Flavio_to_Fierz_lep" es![(.var n!"C"), (.bin .add (.bin .add (.bin .add (.bin .add (.str n!"sb") (.str n!"l_")) (.var n!"l")) (.str n!"nu_")) (.var n!"lp")), (.var n!"p"), (.bool true)]), (.bin .add (.bin .add (.bin .add (.bin .add (.str n!"sb") (.str n!"l_")) (.var n!"l")) (.str n!"nu_")) (.var n!"lp"))])] st![],
        .ite (.or (.bin .is (.var n!"sectors") .none) (.or (.and (.bin .isin (.str n!"db") (.var n!"sectors")) (.bin .eq (.var n!"l") (.var n!"lp"))) (.bin .isin (.bin .add (.bin .add (.str n!"db") (.var n!"l")) (.var n!"lp")) (.var n!"sectors")))) st![.update n!"d" (.call n!"Fierz_to_JMS_lep" es![(.call n!"Flavio_to_Fierz_lep" es![(.var n!"C"), (.bin .add (.bin .add (.bin .add (.bin .add (.str n!"db") (.str n!"l_")) (.var n!"l")) (.str n!"nu_")) (.var n!"lp")), (.var n!"p"), (.bool true)]), (.bin .add (.bin .add (.bin .add (.bin .add (.str n!"db") (.str n!"l_")) (.var n!"l")) (.str n!"nu_")) (.var n!"lp"))])] st![],
        .ite (.or (.bin .is (.var n!"sectors") .none) (.or (.and (.bin .isin (.str n!"sd") (.var n!"sectors")) (.bin .eq (.var n!"l") (.var n!"lp"))) (.bin .isin (.bin .add (.bin .add (.str n!"sd") (.var n!"lp")) (.var n!"l")) (.var n!"sectors")))) st![.update n!"d" (.call n!"Fierz_to_JMS_lep" es![(.call n!"Flavio_to_Fierz_lep" es![(.var n!"C"), (.bin .add (.bin .add (.bin .add (.bin .add (.str n!"ds") (.str n!"l_")) (.var n!"l")) (.str n!"nu_")) (.var n!"lp")), (.var n!"p"), (.bool true)]), (.bin .add (.bin .add (.bin .add (.bin .add (.str n!"ds") (.str n!"l_")) (.var n!"l")) (.str n!"nu_")) (.var n!"lp"))])] st![],
        .ite (.or (.bin .is (.var n!"sectors") .none) (.bin .isin (.str n!"sbnunu") (.var n!"sectors"))) st![.update n!"d" (.call n!"Fierz_to_JMS_nunu" es![(.call n!"Flavio_to_Fierz_nunu" es![(.var n!"C"), (.bin .add (.bin .add (.bin .add (.bin .add (.str n!"sb") (.str n!"l_")) (.var n!"l")) (.str n!"nu_")) (.var n!"lp")), (.var n!"p"), (.bool true)]), (.bin .add (.bin .add (.bin .add (.bin .add (.str n!"sb") (.str n!"l_")) (.var n!"l")) (.str n!"nu_")) (.var n!"lp"))])] st![],
        .ite (.or (.bin .is (.var n!"sectors") .none) (.bin .isin (.str n!"dbnunu") (.var n!"sectors"))) st![.update n!"d" (.call n!"Fierz_to_JMS_nunu" es![(.call n!"Flavio_to_Fierz_nunu" es![(.var n!"C"), (.bin .add (.bin .add (.bin .add (.bin .add (.str n!"db") (.str n!"l_")) (.var n!"l")) (.str n!"nu_")) (.var n!"lp")), (.var n!"p"), (.bool true)]), (.bin .add (.bin .add (.bin .add (.bin .add (.str n!"db") (.str n!"l_")) (.var n!"l")) (.str n!"nu_")) (.var n!"lp"))])] st![],
        .ite (.or (.bin .is (.var n!"sectors") .none) (.bin .isin (.str n!"sdnunu") (.var n!"sectors"))) st![.update n!"d" (.call n!"Fierz_to_JMS_nunu" es![(.call n!"Flavio_to_Fierz_nunu" es![(.var n!"C"), (.bin .add (.bin .add (.bin .add (.bin .add (.str n!"ds") (.str n!"l_")) (.var n!"l")) (.str n!"nu_")) (.var n!"lp")), (.var n!"p"), (.bool true)]), (.bin .add (.bin .add (.bin .add (.bin .add (.str n!"ds") (.str n!"l_")) (.var n!"l")) (.str n!"nu_")) (.var n!"lp"))])] st![],
        .ite (.or (.bin .is (.var n!"sectors") .none) (.and (.bin .isin (.str n!"cu") (.var n!"sectors")) (.bin .eq (.var n!"l") (.var n!"lp")))) st![.ite (.bin .eq (.var n!"l") (.var n!"lp")) st![.update n!"d" (.call n!"Fierz_to_JMS_lep" es![(.call n!"Flavio_to_Fierz_lep" es![(.var n!"C"), (.bin .add (.bin .add (.bin .add (.bin .add (.str n!"uc") (.str n!"l_")) (.var n!"l")) (.str n!"nu_")) (.var n!"lp")), (.var n!"p"), (.bool true)]), (.bin .add (.bin .add (.bin .add (.bin .add (.str n!"uc") (.str n!"l_")) (.var n!"l")) (.str n!"nu_")) (.var n!"lp"))])] st![]] st![]]],
    .for n!"qq1" (.list es![(.str n!"ds"), (.str n!"sb"), (.str n!"db"), (.str n!"uc")]) st![.ite (.or (.bin .is (.var n!"sectors") .none) (.or (.bin .isin (.var n!"qq1") (.var n!"sectors")) (.or (.and (.bin .eq (.var n!"qq1") (.str n!"ds")) (.bin .isin (.str n!"sd") (.var n!"sectors"))) (.and (.bin .eq (.var n!"qq1") (.str n!"uc")) (.bin .isin (.str n!"cu") (.var n!"sectors")))))) st![.for n!"qq2" (.list es![(.str n!"uu"), (.str n!"dd"), (.str n!"ss"), (.str n!"cc"), (.str n!"bb")]) st![.assign n!"qqqq" (.bin .add (.var n!"qq1") (.var n!"qq2")),
          .update n!"d" (.call n!"_Fierz_to_JMS_III_IV_V" es![(.call n!"_Flavio_to_Fierz_V" es![(.var n!"C"), (.var n!"qqqq"), (.var n!"p")]), (.var n!"qqqq")])]] st![]],
    .ite (.or (.bin .is (.var n!"sectors") .none) (.bin .isin (.str n!"sb") (.var n!"sectors"))) st![.update n!"d" (.call n!"Fierz_to_JMS_chrom" es![(.call n!"Flavio_to_Fierz_chrom" es![(.var n!"C"), (.str n!"sb"), (.var n!"p")]), (.str n!"sb")])] st![],
    .ite (.or (.bin .is (.var n!"sectors") .none) (.bin .isin (.str n!"db") (.var n!"sectors"))) st![.update n!"d" (.call n!"Fierz_to_JMS_chrom" es![(.call n!"Flavio_to_Fierz_chrom" es![(.var n!"C"), (.str n!"db"), (.var n!"p")]), (.str n!"db")])] st![],
    .ite (.or (.bin .is (.var n!"sectors") .none) (.bin .isin (.str n!"sd") (.var n!"sectors"))) st![.update n!"d" (.call n!"Fierz_to_JMS_chrom" es![(.call n!"Flavio_to_Fierz_chrom" es![(.var n!"C"), (.str n!"ds"), (.var n!"p")]), (.str n!"ds")])] st![],
    .ite (.or (.bin .is (.var n!"sectors") .none) (.bin .isin (.str n!"cu") (.var n!"sectors"))) st![.update n!"d" (.call n!"Fierz_to_JMS_chrom" es![(.call n!"Flavio_to_Fierz_chrom" es![(.var n!"C"), (.str n!"uc"), (.var n!"p")]), (.str n!"uc")])] st![],
    .ite (.or (.bin .is (.var n!"sectors") .none) (.or (.bin .isin (.str n!"dF=0") (.var n!"sectors")) (.bin .isin (.str n!"ffnunu") (.var n!"sectors")))) st![.update n!"d" (.call n!"_Flavio_to_JMS_VII" es![(.var n!"C"), (.var n!"p")])] st![],
    .ret (.var n!"d")]⟩

/-- the functions in the order of the file -/
def functions : List Fn := [fn_JMS_to_Bern_I,
  fn_Bern_to_JMS_I,
  fn_JMS_to_EOS_I,
  fn_BernI_to_Flavio_I,
  fn_FlavioI_to_Bern_I,
  fn_BernI_to_FormFlavor_I,
  fn_JMS_to_Bern_II,
  fn_Bern_to_JMS_II,
  fn_BernII_to_Flavio_II,
  fn_FlavioII_to_BernII,
  fn_BernII_to_EOS_II,
  fn_Fierz_to_JMS_III_IV_V,
  fn_JMS_to_Fierz_III_IV_V,
  fn_Fierz_to_Bern_III_IV_V,
  fn_Bern_to_Fierz_III_IV_V,
  fn_Fierz_to_EOS_III,
  fn_Fierz_to_Flavio_V,
  fn_Flavio_to_Fierz_V,
  fn_Fierz_to_EOS_V,
  fn_JMS_to_Fierz_lep,
  fn_JMS_to_Fierz_nunu,
  fn_Fierz_to_JMS_lep,
  fn_Fierz_to_JMS_nunu,
  fn_Fierz_to_Bern_lep,
  fn_Fierz_to_Bern_nunu,
  fn_Bern_to_Fierz_lep,
  fn_Bern_to_Fierz_nunu,
  fn_Fierz_to_Flavio_lep,
  fn_Fierz_to_Flavio_nunu,
  fn_Flavio_to_Fierz_lep,
  fn_Flavio_to_Fierz_nunu,
  fn_Fierz_to_EOS_lep,
  fn_JMS_to_FormFlavor_lep,
  fn_JMS_to_Fierz_chrom,
  fn_Fierz_to_JMS_chrom,
  fn_Fierz_to_Bern_chrom,
  fn_Bern_to_Fierz_chrom,
  fn_Fierz_to_Flavio_chrom,
  fn_Flavio_to_Fierz_chrom,
  fn_Fierz_to_EOS_chrom,
  fn_JMS_to_FormFlavor_chrom,
  fn_JMS_to_Flavio_VII,
  fn_Flavio_to_JMS_VII,
  fn_JMS_to_EOS,
  fn_JMS_to_flavio,
  fn_Bern_to_flavio,
  fn_flavio_to_Bern,
  fn_JMS_to_FormFlavor,
  fn_JMS_to_Bern,
  fn_Bern_to_JMS,
  fn_flavio_to_JMS]

/-- data/flavio_jms_vii.json -/
def tableVII : List (ℕ × ℕ) := [(n!"egamma_11", n!"C7_ee"),
  (n!"egamma_22", n!"C7_mumu"),
  (n!"egamma_33", n!"C7_tautau"),
  (n!"ugamma_11", n!"C7_uu"),
  (n!"ugamma_22", n!"C7_cc"),
  (n!"dgamma_11", n!"C7_dd"),
  (n!"dgamma_22", n!"C7_ss"),
  (n!"dgamma_33", n!"C7_bb"),
  (n!"uG_11", n!"C8_uu"),
  (n!"uG_22", n!"C8_cc"),
  (n!"dG_11", n!"C8_dd"),
  (n!"dG_22", n!"C8_ss"),
  (n!"dG_33", n!"C8_bb"),
  (n!"G", n!"CG"),
  (n!"Gtilde", n!"CGtilde"),
  (n!"VeeLL_1111", n!"CVLL_eeee"),
  (n!"VeeLL_1122", n!"CVLL_eemumu"),
  (n!"VeeLL_1133", n!"CVLL_eetautau"),
  (n!"VeeLL_2222", n!"CVLL_mumumumu"),
  (n!"VeeLL_2233", n!"CVLL_mumutautau"),
  (n!"VeeLL_3333", n!"CVLL_tautautautau"),
  (n!"VnueLL_1111", n!"CVLL_nuenueee"),
  (n!"VnueLL_1122", n!"CVLL_nuenuemumu"),
  (n!"VnueLL_1133", n!"CVLL_nuenuetautau"),
  (n!"VnueLL_2211", n!"CVLL_numunumuee"),
  (n!"VnueLL_2222", n!"CVLL_numunumumumu"),
  (n!"VnueLL_2233", n!"CVLL_numunumutautau"),
  (n!"VnueLL_3311", n!"CVLL_nutaunutauee"),
  (n!"VnueLL_3322", n!"CVLL_nutaunutaumumu"),
  (n!"VnueLL_3333", n!"CVLL_nutaunutautautau"),
  (n!"VnuuLL_1111", n!"CVLL_nuenueuu"),
  (n!"VnuuLL_1122", n!"CVLL_nuenuecc"),
  (n!"VnuuLL_2211", n!"CVLL_numunumuuu"),
  (n!"VnuuLL_2222", n!"CVLL_numunumucc"),
  (n!"VnuuLL_3311", n!"CVLL_nutaunutauuu"),
  (n!"VnuuLL_3322", n!"CVLL_nutaunutaucc"),
  (n!"VnudLL_1111", n!"CVLL_nuenuedd"),
  (n!"VnudLL_1122", n!"CVLL_nuenuess"),
  (n!"VnudLL_1133", n!"CVLL_nuenuebb"),
  (n!"VnudLL_2211", n!"CVLL_numunumudd"),
  (n!"VnudLL_2222", n!"CVLL_numunumuss"),
  (n!"VnudLL_2233", n!"CVLL_numunumubb"),
  (n!"VnudLL_3311", n!"CVLL_nutaunutaudd"),
  (n!"VnudLL_3322", n!"CVLL_nutaunutauss"),
  (n!"VnudLL_3333", n!"CVLL_nutaunutaubb"),
  (n!"VeuLL_1111", n!"CVLL_eeuu"),
  (n!"VeuLL_1122", n!"CVLL_eecc"),
  (n!"VeuLL_2211", n!"CVLL_mumuuu"),
  (n!"VeuLL_2222", n!"CVLL_mumucc"),
  (n!"VeuLL_3311", n!"CVLL_tautauuu"),
  (n!"VeuLL_3322", n!"CVLL_tautaucc"),
  (n!"VedLL_1111", n!"CVLL_eedd"),
  (n!"VedLL_1122", n!"CVLL_eess"),
  (n!"VedLL_1133", n!"CVLL_eebb"),
  (n!"VedLL_2211", n!"CVLL_mumudd"),
  (n!"VedLL_2222", n!"CVLL_mumuss"),
  (n!"VedLL_2233", n!"CVLL_mumubb"),
  (n!"VedLL_3311", n!"CVLL_tautaudd"),
  (n!"VedLL_3322", n!"CVLL_tautauss"),
  (n!"VedLL_3333", n!"CVLL_tautaubb"),
  (n!"VuuLL_1111", n!"CVLL_uuuu"),
  (n!"VuuLL_1122", n!"CVLL_uucc"),
  (n!"VuuLL_1221", n!"CVLL_uccu"),
  (n!"VuuLL_2222", n!"CVLL_cccc"),
  (n!"VddLL_1111", n!"CVLL_dddd"),
  (n!"VddLL_1122", n!"CVLL_ddss"),
  (n!"VddLL_1133", n!"CVLL_ddbb"),
  (n!"VddLL_1221", n!"CVLL_dssd"),
  (n!"VddLL_1331", n!"CVLL_dbbd"),
  (n!"VddLL_2222", n!"CVLL_ssss"),
  (n!"VddLL_2233", n!"CVLL_ssbb"),
  (n!"VddLL_2332", n!"CVLL_sbbs"),
  (n!"VddLL_3333", n!"CVLL_bbbb"),
  (n!"V1udLL_1111", n!"CV1LL_uudd"),
  (n!"V1udLL_1122", n!"CV1LL_uuss"),
  (n!"V1udLL_1133", n!"CV1LL_uubb"),
  (n!"V1udLL_2211", n!"CV1LL_ccdd"),
  (n!"V1udLL_2222", n!"CV1LL_ccss"),
  (n!"V1udLL_2233", n!"CV1LL_ccbb"),
  (n!"V8udLL_1111", n!"CV8LL_uudd"),
  (n!"V8udLL_1122", n!"CV8LL_uuss"),
  (n!"V8udLL_1133", n!"CV8LL_uubb"),
  (n!"V8udLL_2211", n!"CV8LL_ccdd"),
  (n!"V8udLL_2222", n!"CV8LL_ccss"),
  (n!"V8udLL_2233", n!"CV8LL_ccbb"),
  (n!"VeeRR_1111", n!"CVRR_eeee"),
  (n!"VeeRR_1122", n!"CVRR_eemumu"),
  (n!"VeeRR_1133", n!"CVRR_eetautau"),
  (n!"VeeRR_2222", n!"CVRR_mumumumu"),
  (n!"VeeRR_2233", n!"CVRR_mumutautau"),
  (n!"VeeRR_3333", n!"CVRR_tautautautau"),
  (n!"VeuRR_1111", n!"CVRR_eeuu"),
  (n!"VeuRR_1122", n!"CVRR_eecc"),
  (n!"VeuRR_2211", n!"CVRR_mumuuu"),
  (n!"VeuRR_2222", n!"CVRR_mumucc"),
  (n!"VeuRR_3311", n!"CVRR_tautauuu"),
  (n!"VeuRR_3322", n!"CVRR_tautaucc"),
  (n!"VedRR_1111", n!"CVRR_eedd"),
  (n!"VedRR_1122", n!"CVRR_eess"),
  (n!"VedRR_1133", n!"CVRR_eebb"),
  (n!"VedRR_2211", n!"CVRR_mumudd"),
  (n!"VedRR_2222", n!"CVRR_mumuss"),
  (n!"VedRR_2233", n!"CVRR_mumubb"),
  (n!"VedRR_3311", n!"CVRR_tautaudd"),
  (n!"VedRR_3322", n!"CVRR_tautauss"),
  (n!"VedRR_3333", n!"CVRR_tautaubb"),
  (n!"VuuRR_1111", n!"CVRR_uuuu"),
  (n!"VuuRR_1122", n!"CVRR_uucc"),
  (n!"VuuRR_1221", n!"CVRR_uccu"),
  (n!"VuuRR_2222", n!"CVRR_cccc"),
  (n!"VddRR_1111", n!"CVRR_dddd"),
  (n!"VddRR_1122", n!"CVRR_ddss"),
  (n!"VddRR_1133", n!"CVRR_ddbb"),
  (n!"VddRR_1221", n!"CVRR_dssd"),
  (n!"VddRR_1331", n!"CVRR_dbbd"),
  (n!"VddRR_2222", n!"CVRR_ssss"),
  (n!"VddRR_2233", n!"CVRR_ssbb"),
  (n!"VddRR_2332", n!"CVRR_sbbs"),
  (n!"VddRR_3333", n!"CVRR_bbbb"),
  (n!"V1udRR_1111", n!"CV1RR_uudd"),
  (n!"V1udRR_1122", n!"CV1RR_uuss"),
  (n!"V1udRR_1133", n!"CV1RR_uubb"),
  (n!"V1udRR_2211", n!"CV1RR_ccdd"),
  (n!"V1udRR_2222", n!"CV1RR_ccss"),
  (n!"V1udRR_2233", n!"CV1RR_ccbb"),
  (n!"V8udRR_1111", n!"CV8RR_uudd"),
  (n!"V8udRR_1122", n!"CV8RR_uuss"),
  (n!"V8udRR_1133", n!"CV8RR_uubb"),
  (n!"V8udRR_2211", n!"CV8RR_ccdd"),
  (n!"V8udRR_2222", n!"CV8RR_ccss"),
  (n!"V8udRR_2233", n!"CV8RR_ccbb"),
  (n!"VnueLR_1111", n!"CVLR_nuenueee"),
  (n!"VnueLR_1122", n!"CVLR_nuenuemumu"),
  (n!"VnueLR_1133", n!"CVLR_nuenuetautau"),
  (n!"VnueLR_2211", n!"CVLR_numunumuee"),
  (n!"VnueLR_2222", n!"CVLR_numunumumumu"),
  (n!"VnueLR_2233", n!"CVLR_numunumutautau"),
  (n!"VnueLR_3311", n!"CVLR_nutaunutauee"),
  (n!"VnueLR_3322", n!"CVLR_nutaunutaumumu"),
  (n!"VnueLR_3333", n!"CVLR_nutaunutautautau"),
  (n!"VeeLR_1111", n!"CVLR_eeee"),
  (n!"VeeLR_1122", n!"CVLR_eemumu"),
  (n!"VeeLR_1133", n!"CVLR_eetautau"),
  (n!"VeeLR_1221", n!"CVLR_emumue"),
  (n!"VeeLR_1331", n!"CVLR_etautaue"),
  (n!"VeeLR_2211", n!"CVLR_mumuee"),
  (n!"VeeLR_2222", n!"CVLR_mumumumu"),
  (n!"VeeLR_2233", n!"CVLR_mumutautau"),
  (n!"VeeLR_2332", n!"CVLR_mutautaumu"),
  (n!"VeeLR_3311", n!"CVLR_tautauee"),
  (n!"VeeLR_3322", n!"CVLR_tautaumumu"),
  (n!"VeeLR_3333", n!"CVLR_tautautautau"),
  (n!"VnuuLR_1111", n!"CVLR_nuenueuu"),
  (n!"VnuuLR_1122", n!"CVLR_nuenuecc"),
  (n!"VnuuLR_2211", n!"CVLR_numunumuuu"),
  (n!"VnuuLR_2222", n!"CVLR_numunumucc"),
  (n!"VnuuLR_3311", n!"CVLR_nutaunutauuu"),
  (n!"VnuuLR_3322", n!"CVLR_nutaunutaucc"),
  (n!"VnudLR_1111", n!"CVLR_nuenuedd"),
  (n!"VnudLR_1122", n!"CVLR_nuenuess"),
  (n!"VnudLR_1133", n!"CVLR_nuenuebb"),
  (n!"VnudLR_2211", n!"CVLR_numunumudd"),
  (n!"VnudLR_2222", n!"CVLR_numunumuss"),
  (n!"VnudLR_2233", n!"CVLR_numunumubb"),
  (n!"VnudLR_3311", n!"CVLR_nutaunutaudd"),
  (n!"VnudLR_3322", n!"CVLR_nutaunutauss"),
  (n!"VnudLR_3333", n!"CVLR_nutaunutaubb"),
  (n!"VeuLR_1111", n!"CVLR_eeuu"),
  (n!"VeuLR_1122", n!"CVLR_eecc"),
  (n!"VeuLR_2211", n!"CVLR_mumuuu"),
  (n!"VeuLR_2222", n!"CVLR_mumucc"),
  (n!"VeuLR_3311", n!"CVLR_tautauuu"),
  (n!"VeuLR_3322", n!"CVLR_tautaucc"),
  (n!"VedLR_1111", n!"CVLR_eedd"),
  (n!"VedLR_1122", n!"CVLR_eess"),
  (n!"VedLR_1133", n!"CVLR_eebb"),
  (n!"VedLR_2211", n!"CVLR_mumudd"),
  (n!"VedLR_2222", n!"CVLR_mumuss"),
  (n!"VedLR_2233", n!"CVLR_mumubb"),
  (n!"VedLR_3311", n!"CVLR_tautaudd"),
  (n!"VedLR_3322", n!"CVLR_tautauss"),
  (n!"VedLR_3333", n!"CVLR_tautaubb"),
  (n!"VueLR_1111", n!"CVLR_uuee"),
  (n!"VueLR_1122", n!"CVLR_uumumu"),
  (n!"VueLR_1133", n!"CVLR_uutautau"),
  (n!"VueLR_2211", n!"CVLR_ccee"),
  (n!"VueLR_2222", n!"CVLR_ccmumu"),
  (n!"VueLR_2233", n!"CVLR_cctautau"),
  (n!"VdeLR_1111", n!"CVLR_ddee"),
  (n!"VdeLR_1122", n!"CVLR_ddmumu"),
  (n!"VdeLR_1133", n!"CVLR_ddtautau"),
  (n!"VdeLR_2211", n!"CVLR_ssee"),
  (n!"VdeLR_2222", n!"CVLR_ssmumu"),
  (n!"VdeLR_2233", n!"CVLR_sstautau"),
  (n!"VdeLR_3311", n!"CVLR_bbee"),
  (n!"VdeLR_3322", n!"CVLR_bbmumu"),
  (n!"VdeLR_3333", n!"CVLR_bbtautau"),
  (n!"V1uuLR_1111", n!"CV1LR_uuuu"),
  (n!"V1uuLR_1122", n!"CV1LR_uucc"),
  (n!"V1uuLR_1221", n!"CV1LR_uccu"),
  (n!"V1uuLR_2211", n!"CV1LR_ccuu"),
  (n!"V1uuLR_2222", n!"CV1LR_cccc"),
  (n!"V8uuLR_1111", n!"CV8LR_uuuu"),
  (n!"V8uuLR_1122", n!"CV8LR_uucc"),
  (n!"V8uuLR_1221", n!"CV8LR_uccu"),
  (n!"V8uuLR_2211", n!"CV8LR_ccuu"),
  (n!"V8uuLR_2222", n!"CV8LR_cccc"),
  (n!"V1udLR_1111", n!"CV1LR_uudd"),
  (n!"V1udLR_1122", n!"CV1LR_uuss"),
  (n!"V1udLR_1133", n!"CV1LR_uubb"),
  (n!"V1udLR_2211", n!"CV1LR_ccdd"),
  (n!"V1udLR_2222", n!"CV1LR_ccss"),
  (n!"V1udLR_2233", n!"CV1LR_ccbb"),
  (n!"V8udLR_1111", n!"CV8LR_uudd"),
  (n!"V8udLR_1122", n!"CV8LR_uuss"),
  (n!"V8udLR_1133", n!"CV8LR_uubb"),
  (n!"V8udLR_2211", n!"CV8LR_ccdd"),
  (n!"V8udLR_2222", n!"CV8LR_ccss"),
  (n!"V8udLR_2233", n!"CV8LR_ccbb"),
  (n!"V1duLR_1111", n!"CV1LR_dduu"),
  (n!"V1duLR_1122", n!"CV1LR_ddcc"),
  (n!"V1duLR_2211", n!"CV1LR_ssuu"),
  (n!"V1duLR_2222", n!"CV1LR_sscc"),
  (n!"V1duLR_3311", n!"CV1LR_bbuu"),
  (n!"V1duLR_3322", n!"CV1LR_bbcc"),
  (n!"V8duLR_1111", n!"CV8LR_dduu"),
  (n!"V8duLR_1122", n!"CV8LR_ddcc"),
  (n!"V8duLR_2211", n!"CV8LR_ssuu"),
  (n!"V8duLR_2222", n!"CV8LR_sscc"),
  (n!"V8duLR_3311", n!"CV8LR_bbuu"),
  (n!"V8duLR_3322", n!"CV8LR_bbcc"),
  (n!"V1ddLR_1111", n!"CV1LR_dddd"),
  (n!"V1ddLR_1122", n!"CV1LR_ddss"),
  (n!"V1ddLR_1133", n!"CV1LR_ddbb"),
  (n!"V1ddLR_1221", n!"CV1LR_dssd"),
  (n!"V1ddLR_1331", n!"CV1LR_dbbd"),
  (n!"V1ddLR_2211", n!"CV1LR_ssdd"),
  (n!"V1ddLR_2222", n!"CV1LR_ssss"),
  (n!"V1ddLR_2233", n!"CV1LR_ssbb"),
  (n!"V1ddLR_2332", n!"CV1LR_sbbs"),
  (n!"V1ddLR_3311", n!"CV1LR_bbdd"),
  (n!"V1ddLR_3322", n!"CV1LR_bbss"),
  (n!"V1ddLR_3333", n!"CV1LR_bbbb"),
  (n!"V8ddLR_1111", n!"CV8LR_dddd"),
  (n!"V8ddLR_1122", n!"CV8LR_ddss"),
  (n!"V8ddLR_1133", n!"CV8LR_ddbb"),
  (n!"V8ddLR_1221", n!"CV8LR_dssd"),
  (n!"V8ddLR_1331", n!"CV8LR_dbbd"),
  (n!"V8ddLR_2211", n!"CV8LR_ssdd"),
  (n!"V8ddLR_2222", n!"CV8LR_ssss"),
  (n!"V8ddLR_2233", n!"CV8LR_ssbb"),
  (n!"V8ddLR_2332", n!"CV8LR_sbbs"),
  (n!"V8ddLR_3311", n!"CV8LR_bbdd"),
  (n!"V8ddLR_3322", n!"CV8LR_bbss"),
  (n!"V8ddLR_3333", n!"CV8LR_bbbb"),
  (n!"V1udduLR_1111", n!"CV1LR_uddu"),
  (n!"V1udduLR_1221", n!"CV1LR_ussu"),
  (n!"V1udduLR_1331", n!"CV1LR_ubbu"),
  (n!"V1udduLR_2112", n!"CV1LR_cddc"),
  (n!"V1udduLR_2222", n!"CV1LR_cssc"),
  (n!"V1udduLR_2332", n!"CV1LR_cbbc"),
  (n!"V8udduLR_1111", n!"CV8LR_uddu"),
  (n!"V8udduLR_1221", n!"CV8LR_ussu"),
  (n!"V8udduLR_1331", n!"CV8LR_ubbu"),
  (n!"V8udduLR_2112", n!"CV8LR_cddc"),
  (n!"V8udduLR_2222", n!"CV8LR_cssc"),
  (n!"V8udduLR_2332", n!"CV8LR_cbbc"),
  (n!"SeuRL_1111", n!"CSRL_eeuu"),
  (n!"SeuRL_1122", n!"CSRL_eecc"),
  (n!"SeuRL_2211", n!"CSRL_mumuuu"),
  (n!"SeuRL_2222", n!"CSRL_mumucc"),
  (n!"SeuRL_3311", n!"CSRL_tautauuu"),
  (n!"SeuRL_3322", n!"CSRL_tautaucc"),
  (n!"SedRL_1111", n!"CSRL_eedd"),
  (n!"SedRL_1122", n!"CSRL_eess"),
  (n!"SedRL_1133", n!"CSRL_eebb"),
  (n!"SedRL_2211", n!"CSRL_mumudd"),
  (n!"SedRL_2222", n!"CSRL_mumuss"),
  (n!"SedRL_2233", n!"CSRL_mumubb"),
  (n!"SedRL_3311", n!"CSRL_tautaudd"),
  (n!"SedRL_3322", n!"CSRL_tautauss"),
  (n!"SedRL_3333", n!"CSRL_tautaubb"),
  (n!"SeeRR_1111", n!"CSRR_eeee"),
  (n!"SeeRR_1122", n!"CSRR_eemumu"),
  (n!"SeeRR_1133", n!"CSRR_eetautau"),
  (n!"SeeRR_1221", n!"CSRR_emumue"),
  (n!"SeeRR_1331", n!"CSRR_etautaue"),
  (n!"SeeRR_2222", n!"CSRR_mumumumu"),
  (n!"SeeRR_2233", n!"CSRR_mumutautau"),
  (n!"SeeRR_2332", n!"CSRR_mutautaumu"),
  (n!"SeeRR_3333", n!"CSRR_tautautautau"),
  (n!"SeuRR_1111", n!"CSRR_eeuu"),
  (n!"SeuRR_1122", n!"CSRR_eecc"),
  (n!"SeuRR_2211", n!"CSRR_mumuuu"),
  (n!"SeuRR_2222", n!"CSRR_mumucc"),
  (n!"SeuRR_3311", n!"CSRR_tautauuu"),
  (n!"SeuRR_3322", n!"CSRR_tautaucc"),
  (n!"TeuRR_1111", n!"CTRR_eeuu"),
  (n!"TeuRR_1122", n!"CTRR_eecc"),
  (n!"TeuRR_2211", n!"CTRR_mumuuu"),
  (n!"TeuRR_2222", n!"CTRR_mumucc"),
  (n!"TeuRR_3311", n!"CTRR_tautauuu"),
  (n!"TeuRR_3322", n!"CTRR_tautaucc"),
  (n!"SedRR_1111", n!"CSRR_eedd"),
  (n!"SedRR_1122", n!"CSRR_eess"),
  (n!"SedRR_1133", n!"CSRR_eebb"),
  (n!"SedRR_2211", n!"CSRR_mumudd"),
  (n!"SedRR_2222", n!"CSRR_mumuss"),
  (n!"SedRR_2233", n!"CSRR_mumubb"),
  (n!"SedRR_3311", n!"CSRR_tautaudd"),
  (n!"SedRR_3322", n!"CSRR_tautauss"),
  (n!"SedRR_3333", n!"CSRR_tautaubb"),
  (n!"TedRR_1111", n!"CTRR_eedd"),
  (n!"TedRR_1122", n!"CTRR_eess"),
  (n!"TedRR_1133", n!"CTRR_eebb"),
  (n!"TedRR_2211", n!"CTRR_mumudd"),
  (n!"TedRR_2222", n!"CTRR_mumuss"),
  (n!"TedRR_2233", n!"CTRR_mumubb"),
  (n!"TedRR_3311", n!"CTRR_tautaudd"),
  (n!"TedRR_3322", n!"CTRR_tautauss"),
  (n!"TedRR_3333", n!"CTRR_tautaubb"),
  (n!"S1uuRR_1111", n!"CS1RR_uuuu"),
  (n!"S1uuRR_1122", n!"CS1RR_uucc"),
  (n!"S1uuRR_1221", n!"CS1RR_uccu"),
  (n!"S1uuRR_2222", n!"CS1RR_cccc"),
  (n!"S8uuRR_1111", n!"CS8RR_uuuu"),
  (n!"S8uuRR_1122", n!"CS8RR_uucc"),
  (n!"S8uuRR_1221", n!"CS8RR_uccu"),
  (n!"S8uuRR_2222", n!"CS8RR_cccc"),
  (n!"S1udRR_1111", n!"CS1RR_uudd"),
  (n!"S1udRR_1122", n!"CS1RR_uuss"),
  (n!"S1udRR_1133", n!"CS1RR_uubb"),
  (n!"S1udRR_2211", n!"CS1RR_ccdd"),
  (n!"S1udRR_2222", n!"CS1RR_ccss"),
  (n!"S1udRR_2233", n!"CS1RR_ccbb"),
  (n!"S8udRR_1111", n!"CS8RR_uudd"),
  (n!"S8udRR_1122", n!"CS8RR_uuss"),
  (n!"S8udRR_1133", n!"CS8RR_uubb"),
  (n!"S8udRR_2211", n!"CS8RR_ccdd"),
  (n!"S8udRR_2222", n!"CS8RR_ccss"),
  (n!"S8udRR_2233", n!"CS8RR_ccbb"),
  (n!"S1ddRR_1111", n!"CS1RR_dddd"),
  (n!"S1ddRR_1122", n!"CS1RR_ddss"),
  (n!"S1ddRR_1133", n!"CS1RR_ddbb"),
  (n!"S1ddRR_1221", n!"CS1RR_dssd"),
  (n!"S1ddRR_1331", n!"CS1RR_dbbd"),
  (n!"S1ddRR_2222", n!"CS1RR_ssss"),
  (n!"S1ddRR_2233", n!"CS1RR_ssbb"),
  (n!"S1ddRR_2332", n!"CS1RR_sbbs"),
  (n!"S1ddRR_3333", n!"CS1RR_bbbb"),
  (n!"S8ddRR_1111", n!"CS8RR_dddd"),
  (n!"S8ddRR_1122", n!"CS8RR_ddss"),
  (n!"S8ddRR_1133", n!"CS8RR_ddbb"),
  (n!"S8ddRR_1221", n!"CS8RR_dssd"),
  (n!"S8ddRR_1331", n!"CS8RR_dbbd"),
  (n!"S8ddRR_2222", n!"CS8RR_ssss"),
  (n!"S8ddRR_2233", n!"CS8RR_ssbb"),
  (n!"S8ddRR_2332", n!"CS8RR_sbbs"),
  (n!"S8ddRR_3333", n!"CS8RR_bbbb"),
  (n!"S1udduRR_1111", n!"CS1RR_uddu"),
  (n!"S1udduRR_1221", n!"CS1RR_ussu"),
  (n!"S1udduRR_1331", n!"CS1RR_ubbu"),
  (n!"S1udduRR_2112", n!"CS1RR_cddc"),
  (n!"S1udduRR_2222", n!"CS1RR_cssc"),
  (n!"S1udduRR_2332", n!"CS1RR_cbbc"),
  (n!"S8udduRR_1111", n!"CS8RR_uddu"),
  (n!"S8udduRR_1221", n!"CS8RR_ussu"),
  (n!"S8udduRR_1331", n!"CS8RR_ubbu"),
  (n!"S8udduRR_2112", n!"CS8RR_cddc"),
  (n!"S8udduRR_2222", n!"CS8RR_cssc"),
  (n!"S8udduRR_2332", n!"CS8RR_cbbc"),
  (n!"VnueLL_1211", n!"CVLL_nuenumuee"),
  (n!"VnueLL_1222", n!"CVLL_nuenumumumu"),
  (n!"VnueLL_1233", n!"CVLL_nuenumutautau"),
  (n!"VnuuLL_1211", n!"CVLL_nuenumuuu"),
  (n!"VnuuLL_1222", n!"CVLL_nuenumucc"),
  (n!"VnudLL_1211", n!"CVLL_nuenumudd"),
  (n!"VnudLL_1222", n!"CVLL_nuenumuss"),
  (n!"VnudLL_1233", n!"CVLL_nuenumubb"),
  (n!"VnueLR_1211", n!"CVLR_nuenumuee"),
  (n!"VnueLR_1222", n!"CVLR_nuenumumumu"),
  (n!"VnueLR_1233", n!"CVLR_nuenumutautau"),
  (n!"VnuuLR_1211", n!"CVLR_nuenumuuu"),
  (n!"VnuuLR_1222", n!"CVLR_nuenumucc"),
  (n!"VnudLR_1211", n!"CVLR_nuenumudd"),
  (n!"VnudLR_1222", n!"CVLR_nuenumuss"),
  (n!"VnudLR_1233", n!"CVLR_nuenumubb"),
  (n!"VnueLL_1311", n!"CVLL_nuenutauee"),
  (n!"VnueLL_1322", n!"CVLL_nuenutaumumu"),
  (n!"VnueLL_1333", n!"CVLL_nuenutautautau"),
  (n!"VnuuLL_1311", n!"CVLL_nuenutauuu"),
  (n!"VnuuLL_1322", n!"CVLL_nuenutaucc"),
  (n!"VnudLL_1311", n!"CVLL_nuenutaudd"),
  (n!"VnudLL_1322", n!"CVLL_nuenutauss"),
  (n!"VnudLL_1333", n!"CVLL_nuenutaubb"),
  (n!"VnueLR_1311", n!"CVLR_nuenutauee"),
  (n!"VnueLR_1322", n!"CVLR_nuenutaumumu"),
  (n!"VnueLR_1333", n!"CVLR_nuenutautautau"),
  (n!"VnuuLR_1311", n!"CVLR_nuenutauuu"),
  (n!"VnuuLR_1322", n!"CVLR_nuenutaucc"),
  (n!"VnudLR_1311", n!"CVLR_nuenutaudd"),
  (n!"VnudLR_1322", n!"CVLR_nuenutauss"),
  (n!"VnudLR_1333", n!"CVLR_nuenutaubb"),
  (n!"VnueLL_2311", n!"CVLL_numunutauee"),
  (n!"VnueLL_2322", n!"CVLL_numunutaumumu"),
  (n!"VnueLL_2333", n!"CVLL_numunutautautau"),
  (n!"VnuuLL_2311", n!"CVLL_numunutauuu"),
  (n!"VnuuLL_2322", n!"CVLL_numunutaucc"),
  (n!"VnudLL_2311", n!"CVLL_numunutaudd"),
  (n!"VnudLL_2322", n!"CVLL_numunutauss"),
  (n!"VnudLL_2333", n!"CVLL_numunutaubb"),
  (n!"VnueLR_2311", n!"CVLR_numunutauee"),
  (n!"VnueLR_2322", n!"CVLR_numunutaumumu"),
  (n!"VnueLR_2333", n!"CVLR_numunutautautau"),
  (n!"VnuuLR_2311", n!"CVLR_numunutauuu"),
  (n!"VnuuLR_2322", n!"CVLR_numunutaucc"),
  (n!"VnudLR_2311", n!"CVLR_numunutaudd"),
  (n!"VnudLR_2322", n!"CVLR_numunutauss"),
  (n!"VnudLR_2333", n!"CVLR_numunutaubb")]

/-- data/flavio_jms_nunull.json -/
def tableNunull : List (ℕ × ℕ) := [(n!"VnueLL_1112", n!"CVLL_nuenuemue"),
  (n!"VnueLL_2212", n!"CVLL_numunumumue"),
  (n!"VnueLL_3312", n!"CVLL_nutaunutaumue"),
  (n!"VnueLR_1112", n!"CVLR_nuenuemue"),
  (n!"VnueLR_2212", n!"CVLR_numunumumue"),
  (n!"VnueLR_3312", n!"CVLR_nutaunutaumue"),
  (n!"VnueLL_1212", n!"CVLL_numunuemue"),
  (n!"VnueLR_1212", n!"CVLR_numunuemue"),
  (n!"VnueLL_1312", n!"CVLL_nutaunuemue"),
  (n!"VnueLR_1312", n!"CVLR_nutaunuemue"),
  (n!"VnueLL_2321", n!"CVLL_nutaunumuemu"),
  (n!"VnueLR_2321", n!"CVLR_nutaunumuemu"),
  (n!"VnueLL_1221", n!"CVLL_numunueemu"),
  (n!"VnueLR_1221", n!"CVLR_numunueemu"),
  (n!"VnueLL_1321", n!"CVLL_nutaunueemu"),
  (n!"VnueLR_1321", n!"CVLR_nutaunueemu"),
  (n!"VnueLL_2312", n!"CVLL_nutaunumumue"),
  (n!"VnueLR_2312", n!"CVLR_nutaunumumue"),
  (n!"VnueLL_1123", n!"CVLL_nuenuetaumu"),
  (n!"VnueLL_2223", n!"CVLL_numunumutaumu"),
  (n!"VnueLL_3323", n!"CVLL_nutaunutautaumu"),
  (n!"VnueLR_1123", n!"CVLR_nuenuetaumu"),
  (n!"VnueLR_2223", n!"CVLR_numunumutaumu"),
  (n!"VnueLR_3323", n!"CVLR_nutaunutautaumu"),
  (n!"VnueLL_1232", n!"CVLL_numunuemutau"),
  (n!"VnueLR_1232", n!"CVLR_numunuemutau"),
  (n!"VnueLL_1332", n!"CVLL_nutaunuemutau"),
  (n!"VnueLR_1332", n!"CVLR_nutaunuemutau"),
  (n!"VnueLL_2323", n!"CVLL_nutaunumutaumu"),
  (n!"VnueLR_2323", n!"CVLR_nutaunumutaumu"),
  (n!"VnueLL_1223", n!"CVLL_numunuetaumu"),
  (n!"VnueLR_1223", n!"CVLR_numunuetaumu"),
  (n!"VnueLL_1323", n!"CVLL_nutaunuetaumu"),
  (n!"VnueLR_1323", n!"CVLR_nutaunuetaumu"),
  (n!"VnueLL_2332", n!"CVLL_nutaunumumutau"),
  (n!"VnueLR_2332", n!"CVLR_nutaunumumutau"),
  (n!"VnueLL_1113", n!"CVLL_nuenuetaue"),
  (n!"VnueLL_2213", n!"CVLL_numunumutaue"),
  (n!"VnueLL_3313", n!"CVLL_nutaunutautaue"),
  (n!"VnueLR_1113", n!"CVLR_nuenuetaue"),
  (n!"VnueLR_2213", n!"CVLR_numunumutaue"),
  (n!"VnueLR_3313", n!"CVLR_nutaunutautaue"),
  (n!"VnueLL_1231", n!"CVLL_numunueetau"),
  (n!"VnueLR_1231", n!"CVLR_numunueetau"),
  (n!"VnueLL_1331", n!"CVLL_nutaunueetau"),
  (n!"VnueLR_1331", n!"CVLR_nutaunueetau"),
  (n!"VnueLL_2313", n!"CVLL_nutaunumutaue"),
  (n!"VnueLR_2313", n!"CVLR_nutaunumutaue"),
  (n!"VnueLL_1213", n!"CVLL_numunuetaue"),
  (n!"VnueLR_1213", n!"CVLR_numunuetaue"),
  (n!"VnueLL_1313", n!"CVLL_nutaunuetaue"),
  (n!"VnueLR_1313", n!"CVLR_nutaunuetaue"),
  (n!"VnueLL_2331", n!"CVLL_nutaunumuetau"),
  (n!"VnueLR_2331", n!"CVLR_nutaunumuetau")]

/-- data/flavio_jms_lfv.json -/
def tableLfv : List (ℕ × ℕ) := [(n!"egamma_12", n!"Cgamma_mue"),
  (n!"egamma_21", n!"Cgamma_emu"),
  (n!"VeeLL_1112", n!"CVLL_eemue"),
  (n!"VeeLL_1222", n!"CVLL_muemumu"),
  (n!"VeeLL_1233", n!"CVLL_muetautau"),
  (n!"VeuLL_1211", n!"CVLL_mueuu"),
  (n!"VeuLL_1222", n!"CVLL_muecc"),
  (n!"VedLL_1211", n!"CVLL_muedd"),
  (n!"VedLL_1222", n!"CVLL_muess"),
  (n!"VedLL_1233", n!"CVLL_muebb"),
  (n!"VeeRR_1112", n!"CVRR_eemue"),
  (n!"VeeRR_1222", n!"CVRR_muemumu"),
  (n!"VeeRR_1233", n!"CVRR_muetautau"),
  (n!"VeuRR_1211", n!"CVRR_mueuu"),
  (n!"VeuRR_1222", n!"CVRR_muecc"),
  (n!"VedRR_1211", n!"CVRR_muedd"),
  (n!"VedRR_1222", n!"CVRR_muess"),
  (n!"VedRR_1233", n!"CVRR_muebb"),
  (n!"VeeLR_1112", n!"CVLR_eemue"),
  (n!"VeeLR_1211", n!"CVLR_mueee"),
  (n!"VeeLR_1222", n!"CVLR_muemumu"),
  (n!"VeeLR_1233", n!"CVLR_muetautau"),
  (n!"VeeLR_1332", n!"CVLR_tauemutau"),
  (n!"VeeLR_2212", n!"CVLR_mumumue"),
  (n!"VeeLR_2331", n!"CVLR_taumuetau"),
  (n!"VeeLR_3312", n!"CVLR_tautaumue"),
  (n!"VeuLR_1211", n!"CVLR_mueuu"),
  (n!"VeuLR_1222", n!"CVLR_muecc"),
  (n!"VedLR_1211", n!"CVLR_muedd"),
  (n!"VedLR_1222", n!"CVLR_muess"),
  (n!"VedLR_1233", n!"CVLR_muebb"),
  (n!"VueLR_1112", n!"CVLR_uumue"),
  (n!"VueLR_2212", n!"CVLR_ccmue"),
  (n!"VdeLR_1112", n!"CVLR_ddmue"),
  (n!"VdeLR_2212", n!"CVLR_ssmue"),
  (n!"VdeLR_3312", n!"CVLR_bbmue"),
  (n!"SeuRL_1211", n!"CSRL_mueuu"),
  (n!"SeuRL_1222", n!"CSRL_muecc"),
  (n!"SeuRL_2111", n!"CSRL_emuuu"),
  (n!"SeuRL_2122", n!"CSRL_emucc"),
  (n!"SedRL_1211", n!"CSRL_muedd"),
  (n!"SedRL_1222", n!"CSRL_muess"),
  (n!"SedRL_1233", n!"CSRL_muebb"),
  (n!"SedRL_2111", n!"CSRL_emudd"),
  (n!"SedRL_2122", n!"CSRL_emuss"),
  (n!"SedRL_2133", n!"CSRL_emubb"),
  (n!"SeeRR_1112", n!"CSRR_eemue"),
  (n!"SeeRR_1121", n!"CSRR_eeemu"),
  (n!"SeeRR_1222", n!"CSRR_muemumu"),
  (n!"SeeRR_1233", n!"CSRR_muetautau"),
  (n!"SeeRR_1332", n!"CSRR_tauemutau"),
  (n!"SeeRR_2122", n!"CSRR_emumumu"),
  (n!"SeeRR_2133", n!"CSRR_emutautau"),
  (n!"SeeRR_2331", n!"CSRR_taumuetau"),
  (n!"SeuRR_1211", n!"CSRR_mueuu"),
  (n!"SeuRR_1222", n!"CSRR_muecc"),
  (n!"SeuRR_2111", n!"CSRR_emuuu"),
  (n!"SeuRR_2122", n!"CSRR_emucc"),
  (n!"TeuRR_1211", n!"CTRR_mueuu"),
  (n!"TeuRR_1222", n!"CTRR_muecc"),
  (n!"TeuRR_2111", n!"CTRR_emuuu"),
  (n!"TeuRR_2122", n!"CTRR_emucc"),
  (n!"SedRR_1211", n!"CSRR_muedd"),
  (n!"SedRR_1222", n!"CSRR_muess"),
  (n!"SedRR_1233", n!"CSRR_muebb"),
  (n!"SedRR_2111", n!"CSRR_emudd"),
  (n!"SedRR_2122", n!"CSRR_emuss"),
  (n!"SedRR_2133", n!"CSRR_emubb"),
  (n!"TedRR_1211", n!"CTRR_muedd"),
  (n!"TedRR_1222", n!"CTRR_muess"),
  (n!"TedRR_1233", n!"CTRR_muebb"),
  (n!"TedRR_2111", n!"CTRR_emudd"),
  (n!"TedRR_2122", n!"CTRR_emuss"),
  (n!"TedRR_2133", n!"CTRR_emubb"),
  (n!"egamma_23", n!"Cgamma_taumu"),
  (n!"egamma_32", n!"Cgamma_mutau"),
  (n!"VeeLL_1123", n!"CVLL_eetaumu"),
  (n!"VeeLL_2223", n!"CVLL_mumutaumu"),
  (n!"VeeLL_2333", n!"CVLL_taumutautau"),
  (n!"VeuLL_2311", n!"CVLL_taumuuu"),
  (n!"VeuLL_2322", n!"CVLL_taumucc"),
  (n!"VedLL_2311", n!"CVLL_taumudd"),
  (n!"VedLL_2322", n!"CVLL_taumuss"),
  (n!"VedLL_2333", n!"CVLL_taumubb"),
  (n!"VeeRR_1123", n!"CVRR_eetaumu"),
  (n!"VeeRR_2223", n!"CVRR_mumutaumu"),
  (n!"VeeRR_2333", n!"CVRR_taumutautau"),
  (n!"VeuRR_2311", n!"CVRR_taumuuu"),
  (n!"VeuRR_2322", n!"CVRR_taumucc"),
  (n!"VedRR_2311", n!"CVRR_taumudd"),
  (n!"VedRR_2322", n!"CVRR_taumuss"),
  (n!"VedRR_2333", n!"CVRR_taumubb"),
  (n!"VeeLR_1123", n!"CVLR_eetaumu"),
  (n!"VeeLR_1231", n!"CVLR_mueetau"),
  (n!"VeeLR_1321", n!"CVLR_taueemu"),
  (n!"VeeLR_2223", n!"CVLR_mumutaumu"),
  (n!"VeeLR_2311", n!"CVLR_taumuee"),
  (n!"VeeLR_2322", n!"CVLR_taumumumu"),
  (n!"VeeLR_2333", n!"CVLR_taumutautau"),
  (n!"VeeLR_3323", n!"CVLR_tautautaumu"),
  (n!"VeuLR_2311", n!"CVLR_taumuuu"),
  (n!"VeuLR_2322", n!"CVLR_taumucc"),
  (n!"VedLR_2311", n!"CVLR_taumudd"),
  (n!"VedLR_2322", n!"CVLR_taumuss"),
  (n!"VedLR_2333", n!"CVLR_taumubb"),
  (n!"VueLR_1123", n!"CVLR_uutaumu"),
  (n!"VueLR_2223", n!"CVLR_cctaumu"),
  (n!"VdeLR_1123", n!"CVLR_ddtaumu"),
  (n!"VdeLR_2223", n!"CVLR_sstaumu"),
  (n!"VdeLR_3323", n!"CVLR_bbtaumu"),
  (n!"SeuRL_2311", n!"CSRL_taumuuu"),
  (n!"SeuRL_2322", n!"CSRL_taumucc"),
  (n!"SeuRL_3211", n!"CSRL_mutauuu"),
  (n!"SeuRL_3222", n!"CSRL_mutaucc"),
  (n!"SedRL_2311", n!"CSRL_taumudd"),
  (n!"SedRL_2322", n!"CSRL_taumuss"),
  (n!"SedRL_2333", n!"CSRL_taumubb"),
  (n!"SedRL_3211", n!"CSRL_mutaudd"),
  (n!"SedRL_3222", n!"CSRL_mutauss"),
  (n!"SedRL_3233", n!"CSRL_mutaubb"),
  (n!"SeeRR_1123", n!"CSRR_eetaumu"),
  (n!"SeeRR_1132", n!"CSRR_eemutau"),
  (n!"SeeRR_1231", n!"CSRR_mueetau"),
  (n!"SeeRR_1321", n!"CSRR_taueemu"),
  (n!"SeeRR_2223", n!"CSRR_mumutaumu"),
  (n!"SeeRR_2232", n!"CSRR_mumumutau"),
  (n!"SeeRR_2333", n!"CSRR_taumutautau"),
  (n!"SeeRR_3233", n!"CSRR_mutautautau"),
  (n!"SeuRR_2311", n!"CSRR_taumuuu"),
  (n!"SeuRR_2322", n!"CSRR_taumucc"),
  (n!"SeuRR_3211", n!"CSRR_mutauuu"),
  (n!"SeuRR_3222", n!"CSRR_mutaucc"),
  (n!"TeuRR_2311", n!"CTRR_taumuuu"),
  (n!"TeuRR_2322", n!"CTRR_taumucc"),
  (n!"TeuRR_3211", n!"CTRR_mutauuu"),
  (n!"TeuRR_3222", n!"CTRR_mutaucc"),
  (n!"SedRR_2311", n!"CSRR_taumudd"),
  (n!"SedRR_2322", n!"CSRR_taumuss"),
  (n!"SedRR_2333", n!"CSRR_taumubb"),
  (n!"SedRR_3211", n!"CSRR_mutaudd"),
  (n!"SedRR_3222", n!"CSRR_mutauss"),
  (n!"SedRR_3233", n!"CSRR_mutaubb"),
  (n!"TedRR_2311", n!"CTRR_taumudd"),
  (n!"TedRR_2322", n!"CTRR_taumuss"),
  (n!"TedRR_2333", n!"CTRR_taumubb"),
  (n!"TedRR_3211", n!"CTRR_mutaudd"),
  (n!"TedRR_3222", n!"CTRR_mutauss"),
  (n!"TedRR_3233", n!"CTRR_mutaubb"),
  (n!"egamma_13", n!"Cgamma_taue"),
  (n!"egamma_31", n!"Cgamma_etau"),
  (n!"VeeLL_1113", n!"CVLL_eetaue"),
  (n!"VeeLL_1223", n!"CVLL_muetaumu"),
  (n!"VeeLL_1333", n!"CVLL_tauetautau"),
  (n!"VeuLL_1311", n!"CVLL_taueuu"),
  (n!"VeuLL_1322", n!"CVLL_tauecc"),
  (n!"VedLL_1311", n!"CVLL_tauedd"),
  (n!"VedLL_1322", n!"CVLL_tauess"),
  (n!"VedLL_1333", n!"CVLL_tauebb"),
  (n!"VeeRR_1113", n!"CVRR_eetaue"),
  (n!"VeeRR_1223", n!"CVRR_muetaumu"),
  (n!"VeeRR_1333", n!"CVRR_tauetautau"),
  (n!"VeuRR_1311", n!"CVRR_taueuu"),
  (n!"VeuRR_1322", n!"CVRR_tauecc"),
  (n!"VedRR_1311", n!"CVRR_tauedd"),
  (n!"VedRR_1322", n!"CVRR_tauess"),
  (n!"VedRR_1333", n!"CVRR_tauebb"),
  (n!"VeeLR_1113", n!"CVLR_eetaue"),
  (n!"VeeLR_1223", n!"CVLR_muetaumu"),
  (n!"VeeLR_1311", n!"CVLR_taueee"),
  (n!"VeeLR_1322", n!"CVLR_tauemumu"),
  (n!"VeeLR_1333", n!"CVLR_tauetautau"),
  (n!"VeeLR_2213", n!"CVLR_mumutaue"),
  (n!"VeeLR_2312", n!"CVLR_taumumue"),
  (n!"VeeLR_3313", n!"CVLR_tautautaue"),
  (n!"VeuLR_1311", n!"CVLR_taueuu"),
  (n!"VeuLR_1322", n!"CVLR_tauecc"),
  (n!"VedLR_1311", n!"CVLR_tauedd"),
  (n!"VedLR_1322", n!"CVLR_tauess"),
  (n!"VedLR_1333", n!"CVLR_tauebb"),
  (n!"VueLR_1113", n!"CVLR_uutaue"),
  (n!"VueLR_2213", n!"CVLR_cctaue"),
  (n!"VdeLR_1113", n!"CVLR_ddtaue"),
  (n!"VdeLR_2213", n!"CVLR_sstaue"),
  (n!"VdeLR_3313", n!"CVLR_bbtaue"),
  (n!"SeuRL_1311", n!"CSRL_taueuu"),
  (n!"SeuRL_1322", n!"CSRL_tauecc"),
  (n!"SeuRL_3111", n!"CSRL_etauuu"),
  (n!"SeuRL_3122", n!"CSRL_etaucc"),
  (n!"SedRL_1311", n!"CSRL_tauedd"),
  (n!"SedRL_1322", n!"CSRL_tauess"),
  (n!"SedRL_1333", n!"CSRL_tauebb"),
  (n!"SedRL_3111", n!"CSRL_etaudd"),
  (n!"SedRL_3122", n!"CSRL_etauss"),
  (n!"SedRL_3133", n!"CSRL_etaubb"),
  (n!"SeeRR_1113", n!"CSRR_eetaue"),
  (n!"SeeRR_1131", n!"CSRR_eeetau"),
  (n!"SeeRR_1223", n!"CSRR_muetaumu"),
  (n!"SeeRR_1322", n!"CSRR_tauemumu"),
  (n!"SeeRR_1333", n!"CSRR_tauetautau"),
  (n!"SeeRR_2132", n!"CSRR_emumutau"),
  (n!"SeeRR_2231", n!"CSRR_mumuetau"),
  (n!"SeeRR_3133", n!"CSRR_etautautau"),
  (n!"SeuRR_1311", n!"CSRR_taueuu"),
  (n!"SeuRR_1322", n!"CSRR_tauecc"),
  (n!"SeuRR_3111", n!"CSRR_etauuu"),
  (n!"SeuRR_3122", n!"CSRR_etaucc"),
  (n!"TeuRR_1311", n!"CTRR_taueuu"),
  (n!"TeuRR_1322", n!"CTRR_tauecc"),
  (n!"TeuRR_3111", n!"CTRR_etauuu"),
  (n!"TeuRR_3122", n!"CTRR_etaucc"),
  (n!"SedRR_1311", n!"CSRR_tauedd"),
  (n!"SedRR_1322", n!"CSRR_tauess"),
  (n!"SedRR_1333", n!"CSRR_tauebb"),
  (n!"SedRR_3111", n!"CSRR_etaudd"),
  (n!"SedRR_3122", n!"CSRR_etauss"),
  (n!"SedRR_3133", n!"CSRR_etaubb"),
  (n!"TedRR_1311", n!"CTRR_tauedd"),
  (n!"TedRR_1322", n!"CTRR_tauess"),
  (n!"TedRR_1333", n!"CTRR_tauebb"),
  (n!"TedRR_3111", n!"CTRR_etaudd"),
  (n!"TedRR_3122", n!"CTRR_etauss"),
  (n!"TedRR_3133", n!"CTRR_etaubb"),
  (n!"VeeLL_1232", n!"CVLL_muemutau"),
  (n!"VeeRR_1232", n!"CVRR_muemutau"),
  (n!"VeeLR_1232", n!"CVLR_muemutau"),
  (n!"VeeLR_2321", n!"CVLR_taumuemu"),
  (n!"SeeRR_1232", n!"CSRR_muemutau"),
  (n!"SeeRR_2123", n!"CSRR_emutaumu"),
  (n!"VeeLL_1213", n!"CVLL_muetaue"),
  (n!"VeeRR_1213", n!"CVRR_muetaue"),
  (n!"VeeLR_1213", n!"CVLR_muetaue"),
  (n!"VeeLR_1312", n!"CVLR_tauemue"),
  (n!"SeeRR_1213", n!"CSRR_muetaue"),
  (n!"SeeRR_2131", n!"CSRR_emuetau")]

/-- data/flavorkit_jms.json -/
def tableFlavorkit : List (ℕ × ℕ) := [(n!"DSRR_2323", n!"S1ddRR_3232"),
  (n!"DSRR_3232", n!"S1ddRR_2323"),
  (n!"DSRR_1313", n!"S1ddRR_3131"),
  (n!"DSRR_3131", n!"S1ddRR_1313"),
  (n!"DSRR_1212", n!"S1ddRR_2121"),
  (n!"DSRR_2121", n!"S1ddRR_1212"),
  (n!"DSRR_1323", n!"S1ddRR_3132"),
  (n!"DSRR_3132", n!"S1ddRR_1323"),
  (n!"DSRR_1232", n!"S1ddRR_2123"),
  (n!"DSRR_2123", n!"S1ddRR_1232"),
  (n!"DSRR_1213", n!"S1ddRR_2131"),
  (n!"DSRR_2131", n!"S1ddRR_1213"),
  (n!"FVLL_2111", n!"VnudLL_1112"),
  (n!"FVLL_2122", n!"VnudLL_2212"),
  (n!"FVLL_2133", n!"VnudLL_3312"),
  (n!"FVRL_2111", n!"VnudLR_1112"),
  (n!"FVRL_2122", n!"VnudLR_2212"),
  (n!"FVRL_2133", n!"VnudLR_3312"),
  (n!"DSRR_2311", n!"S1ddRR_1132"),
  (n!"DSRR_2322", n!"S1ddRR_2232"),
  (n!"DSRR_2333", n!"S1ddRR_3233"),
  (n!"DSRR_3211", n!"S1ddRR_1123"),
  (n!"DSRR_3222", n!"S1ddRR_2223"),
  (n!"DSRR_3233", n!"S1ddRR_2333"),
  (n!"DSRR_1231", n!"S1ddRR_1321"),
  (n!"DSRR_1321", n!"S1ddRR_1231"),
  (n!"ESRR_2311", n!"SedRR_1132"),
  (n!"ESRR_2322", n!"SedRR_2232"),
  (n!"ESRR_2333", n!"SedRR_3332"),
  (n!"ESRR_3211", n!"SedRR_1123"),
  (n!"ESRR_3222", n!"SedRR_2223"),
  (n!"ESRR_3233", n!"SedRR_3323"),
  (n!"ESLR_2311", n!"SedRL_1132"),
  (n!"ESLR_2322", n!"SedRL_2232"),
  (n!"ESLR_2333", n!"SedRL_3332"),
  (n!"ESLR_3211", n!"SedRL_1123"),
  (n!"ESLR_3222", n!"SedRL_2223"),
  (n!"ESLR_3233", n!"SedRL_3323"),
  (n!"ETRR_2311", n!"TedRR_1132"),
  (n!"ETRR_2322", n!"TedRR_2232"),
  (n!"ETRR_2333", n!"TedRR_3332"),
  (n!"ETRR_3211", n!"TedRR_1123"),
  (n!"ETRR_3222", n!"TedRR_2223"),
  (n!"ETRR_3233", n!"TedRR_3323"),
  (n!"DVLL_2132", n!"VddLL_1223"),
  (n!"DVRR_2132", n!"VddRR_1223"),
  (n!"DVLR_2132", n!"V1ddLR_1223"),
  (n!"DSRR_1311", n!"S1ddRR_1131"),
  (n!"DSRR_1322", n!"S1ddRR_2231"),
  (n!"DSRR_1333", n!"S1ddRR_3133"),
  (n!"DSRR_3111", n!"S1ddRR_1113"),
  (n!"DSRR_3122", n!"S1ddRR_1322"),
  (n!"DSRR_3133", n!"S1ddRR_1333"),
  (n!"DSRR_2132", n!"S1ddRR_1223"),
  (n!"DSRR_2312", n!"S1ddRR_2132"),
  (n!"ESRR_1311", n!"SedRR_1131"),
  (n!"ESRR_1322", n!"SedRR_2231"),
  (n!"ESRR_1333", n!"SedRR_3331"),
  (n!"ESRR_3111", n!"SedRR_1113"),
  (n!"ESRR_3122", n!"SedRR_2213"),
  (n!"ESRR_3133", n!"SedRR_3313"),
  (n!"ESLR_1311", n!"SedRL_1131"),
  (n!"ESLR_1322", n!"SedRL_2231"),
  (n!"ESLR_1333", n!"SedRL_3331"),
  (n!"ESLR_3111", n!"SedRL_1113"),
  (n!"ESLR_3122", n!"SedRL_2213"),
  (n!"ESLR_3133", n!"SedRL_3313"),
  (n!"ETRR_1311", n!"TedRR_1131"),
  (n!"ETRR_1322", n!"TedRR_2231"),
  (n!"ETRR_1333", n!"TedRR_3331"),
  (n!"ETRR_3111", n!"TedRR_1113"),
  (n!"ETRR_3122", n!"TedRR_2213"),
  (n!"ETRR_3133", n!"TedRR_3313"),
  (n!"DVLL_3123", n!"VddLL_1332"),
  (n!"DVRR_3123", n!"VddRR_1332"),
  (n!"DVLR_3123", n!"V1ddLR_1332"),
  (n!"DVLR_3213", n!"V1ddLR_2331"),
  (n!"DSRR_1211", n!"S1ddRR_1121"),
  (n!"DSRR_1222", n!"S1ddRR_2122"),
  (n!"DSRR_1233", n!"S1ddRR_2133"),
  (n!"DSRR_2111", n!"S1ddRR_1112"),
  (n!"DSRR_2122", n!"S1ddRR_1222"),
  (n!"DSRR_2133", n!"S1ddRR_1233"),
  (n!"DSRR_3123", n!"S1ddRR_1332"),
  (n!"DSRR_3213", n!"S1ddRR_2331"),
  (n!"ESRR_1211", n!"SedRR_1121"),
  (n!"ESRR_1222", n!"SedRR_2221"),
  (n!"ESRR_1233", n!"SedRR_3321"),
  (n!"ESRR_2111", n!"SedRR_1112"),
  (n!"ESRR_2122", n!"SedRR_2212"),
  (n!"ESRR_2133", n!"SedRR_3312"),
  (n!"ESLR_1211", n!"SedRL_1121"),
  (n!"ESLR_1222", n!"SedRL_2221"),
  (n!"ESLR_1233", n!"SedRL_3321"),
  (n!"ESLR_2111", n!"SedRL_1112"),
  (n!"ESLR_2122", n!"SedRL_2212"),
  (n!"ESLR_2133", n!"SedRL_3312"),
  (n!"ETRR_1211", n!"TedRR_1121"),
  (n!"ETRR_1222", n!"TedRR_2221"),
  (n!"ETRR_1233", n!"TedRR_3321"),
  (n!"ETRR_2111", n!"TedRR_1112"),
  (n!"ETRR_2122", n!"TedRR_2212"),
  (n!"ETRR_2133", n!"TedRR_3312"),
  (n!"ESRR_2312", n!"SedRR_2132"),
  (n!"ESRR_3221", n!"SedRR_1223"),
  (n!"ESLR_2312", n!"SedRL_2132"),
  (n!"ESLR_3221", n!"SedRL_1223"),
  (n!"ETRR_2312", n!"TedRR_2132"),
  (n!"ETRR_3221", n!"TedRR_1223"),
  (n!"EVLR_3212", n!"VdeLR_2321"),
  (n!"ESRR_3212", n!"SedRR_2123"),
  (n!"ESRR_2321", n!"SedRR_1232"),
  (n!"ESLR_3212", n!"SedRL_2123"),
  (n!"ESLR_2321", n!"SedRL_1232"),
  (n!"ETRR_3212", n!"TedRR_2123"),
  (n!"ETRR_2321", n!"TedRR_1232"),
  (n!"ESRR_2313", n!"SedRR_3132"),
  (n!"ESRR_3231", n!"SedRR_1323"),
  (n!"ESLR_2313", n!"SedRL_3132"),
  (n!"ESLR_3231", n!"SedRL_1323"),
  (n!"ETRR_2313", n!"TedRR_3132"),
  (n!"ETRR_3231", n!"TedRR_1323"),
  (n!"EVLR_3213", n!"VdeLR_2331"),
  (n!"ESRR_3213", n!"SedRR_3123"),
  (n!"ESRR_2331", n!"SedRR_1332"),
  (n!"ESLR_3213", n!"SedRL_3123"),
  (n!"ESLR_2331", n!"SedRL_1332"),
  (n!"ETRR_3213", n!"TedRR_3123"),
  (n!"ETRR_2331", n!"TedRR_1332"),
  (n!"ESRR_2323", n!"SedRR_3232"),
  (n!"ESRR_3232", n!"SedRR_2323"),
  (n!"ESLR_2323", n!"SedRL_3232"),
  (n!"ESLR_3232", n!"SedRL_2323"),
  (n!"ETRR_2323", n!"TedRR_3232"),
  (n!"ETRR_3232", n!"TedRR_2323"),
  (n!"EVLR_3223", n!"VdeLR_2332"),
  (n!"ESRR_3223", n!"SedRR_3223"),
  (n!"ESRR_2332", n!"SedRR_2332"),
  (n!"ESLR_3223", n!"SedRL_3223"),
  (n!"ESLR_2332", n!"SedRL_2332"),
  (n!"ETRR_3223", n!"TedRR_3223"),
  (n!"ETRR_2332", n!"TedRR_2332"),
  (n!"ESRR_1312", n!"SedRR_2131"),
  (n!"ESRR_3121", n!"SedRR_1213"),
  (n!"ESLR_1312", n!"SedRL_2131"),
  (n!"ESLR_3121", n!"SedRL_1213"),
  (n!"ETRR_1312", n!"TedRR_2131"),
  (n!"ETRR_3121", n!"TedRR_1213"),
  (n!"EVLR_3112", n!"VdeLR_1321"),
  (n!"ESRR_3112", n!"SedRR_2113"),
  (n!"ESRR_1321", n!"SedRR_1231"),
  (n!"ESLR_3112", n!"SedRL_2113"),
  (n!"ESLR_1321", n!"SedRL_1231"),
  (n!"ETRR_3112", n!"TedRR_2113"),
  (n!"ETRR_1321", n!"TedRR_1231"),
  (n!"ESRR_1313", n!"SedRR_3131"),
  (n!"ESRR_3131", n!"SedRR_1313"),
  (n!"ESLR_1313", n!"SedRL_3131"),
  (n!"ESLR_3131", n!"SedRL_1313"),
  (n!"ETRR_1313", n!"TedRR_3131"),
  (n!"ETRR_3131", n!"TedRR_1313"),
  (n!"EVLR_3113", n!"VdeLR_1331"),
  (n!"ESRR_3113", n!"SedRR_3113"),
  (n!"ESRR_1331", n!"SedRR_1331"),
  (n!"ESLR_3113", n!"SedRL_3113"),
  (n!"ESLR_1331", n!"SedRL_1331"),
  (n!"ETRR_3113", n!"TedRR_3113"),
  (n!"ETRR_1331", n!"TedRR_1331"),
  (n!"ESRR_1323", n!"SedRR_3231"),
  (n!"ESRR_3132", n!"SedRR_2313"),
  (n!"ESLR_1323", n!"SedRL_3231"),
  (n!"ESLR_3132", n!"SedRL_2313"),
  (n!"ETRR_1323", n!"TedRR_3231"),
  (n!"ETRR_3132", n!"TedRR_2313"),
  (n!"EVLR_3123", n!"VdeLR_1332"),
  (n!"ESRR_3123", n!"SedRR_3213"),
  (n!"ESRR_1332", n!"SedRR_2331"),
  (n!"ESLR_3123", n!"SedRL_3213"),
  (n!"ESLR_1332", n!"SedRL_2331"),
  (n!"ETRR_3123", n!"TedRR_3213"),
  (n!"ETRR_1332", n!"TedRR_2331"),
  (n!"EVLR_2112", n!"VdeLR_1221"),
  (n!"ESRR_2112", n!"SedRR_2112"),
  (n!"ESRR_1221", n!"SedRR_1221"),
  (n!"ESLR_2112", n!"SedRL_2112"),
  (n!"ESLR_1221", n!"SedRL_1221"),
  (n!"ETRR_2112", n!"TedRR_2112"),
  (n!"ETRR_1221", n!"TedRR_1221"),
  (n!"ESRR_1212", n!"SedRR_2121"),
  (n!"ESRR_2121", n!"SedRR_1212"),
  (n!"ESLR_1212", n!"SedRL_2121"),
  (n!"ESLR_2121", n!"SedRL_1212"),
  (n!"ETRR_1212", n!"TedRR_2121"),
  (n!"ETRR_2121", n!"TedRR_1212"),
  (n!"EVLR_2113", n!"VdeLR_1231"),
  (n!"ESRR_2113", n!"SedRR_3112"),
  (n!"ESRR_1231", n!"SedRR_1321"),
  (n!"ESLR_2113", n!"SedRL_3112"),
  (n!"ESLR_1231", n!"SedRL_1321"),
  (n!"ETRR_2113", n!"TedRR_3112"),
  (n!"ETRR_1231", n!"TedRR_1321"),
  (n!"ESRR_1213", n!"SedRR_3121"),
  (n!"ESRR_2131", n!"SedRR_1312"),
  (n!"ESLR_1213", n!"SedRL_3121"),
  (n!"ESLR_2131", n!"SedRL_1312"),
  (n!"ETRR_1213", n!"TedRR_3121"),
  (n!"ETRR_2131", n!"TedRR_1312"),
  (n!"EVLR_2123", n!"VdeLR_1232"),
  (n!"ESRR_2123", n!"SedRR_3212"),
  (n!"ESRR_1232", n!"SedRR_2321"),
  (n!"ESLR_2123", n!"SedRL_3212"),
  (n!"ESLR_1232", n!"SedRL_2321"),
  (n!"ETRR_2123", n!"TedRR_3212"),
  (n!"ETRR_1232", n!"TedRR_2321"),
  (n!"ESRR_1223", n!"SedRR_3221"),
  (n!"ESRR_2132", n!"SedRR_2312"),
  (n!"ESLR_1223", n!"SedRL_3221"),
  (n!"ESLR_2132", n!"SedRL_2312"),
  (n!"ETRR_1223", n!"TedRR_3221"),
  (n!"ETRR_2132", n!"TedRR_2312"),
  (n!"AVLL_1121", n!"VeeLL_1112"),
  (n!"AVLL_2221", n!"VeeLL_1222"),
  (n!"AVLL_3321", n!"VeeLL_1233"),
  (n!"AVRR_1121", n!"VeeRR_1112"),
  (n!"AVRR_2221", n!"VeeRR_1222"),
  (n!"AVRR_3321", n!"VeeRR_1233"),
  (n!"AVLR_1121", n!"VeeLR_1112"),
  (n!"AVLR_2221", n!"VeeLR_2212"),
  (n!"AVLR_3321", n!"VeeLR_3312"),
  (n!"AVLR_2111", n!"VeeLR_1211"),
  (n!"AVLR_2122", n!"VeeLR_1222"),
  (n!"AVLR_2133", n!"VeeLR_1233"),
  (n!"AVLR_3213", n!"VeeLR_2331"),
  (n!"AVLR_3123", n!"VeeLR_1332"),
  (n!"ASRR_1121", n!"SeeRR_1112"),
  (n!"ASRR_2221", n!"SeeRR_1222"),
  (n!"ASRR_3321", n!"SeeRR_1233"),
  (n!"ASRR_1112", n!"SeeRR_1121"),
  (n!"ASRR_2212", n!"SeeRR_2122"),
  (n!"ASRR_3312", n!"SeeRR_2133"),
  (n!"ASRR_3213", n!"SeeRR_2331"),
  (n!"ASRR_3123", n!"SeeRR_1332"),
  (n!"BVLL_2111", n!"VedLL_1211"),
  (n!"BVLL_2122", n!"VedLL_1222"),
  (n!"BVLL_2133", n!"VedLL_1233"),
  (n!"BVRR_2111", n!"VedRR_1211"),
  (n!"BVRR_2122", n!"VedRR_1222"),
  (n!"BVRR_2133", n!"VedRR_1233"),
  (n!"BVLR_2111", n!"VedLR_1211"),
  (n!"BVLR_2122", n!"VedLR_1222"),
  (n!"BVLR_2133", n!"VedLR_1233"),
  (n!"BSRL_2111", n!"SedRL_1211"),
  (n!"BSRL_2122", n!"SedRL_1222"),
  (n!"BSRL_2133", n!"SedRL_1233"),
  (n!"BSRL_1211", n!"SedRL_2111"),
  (n!"BSRL_1222", n!"SedRL_2122"),
  (n!"BSRL_1233", n!"SedRL_2133"),
  (n!"BSRR_2111", n!"SedRR_1211"),
  (n!"BSRR_2122", n!"SedRR_1222"),
  (n!"BSRR_2133", n!"SedRR_1233"),
  (n!"BSRR_1211", n!"SedRR_2111"),
  (n!"BSRR_1222", n!"SedRR_2122"),
  (n!"BSRR_1233", n!"SedRR_2133"),
  (n!"BTRR_2111", n!"TedRR_1211"),
  (n!"BTRR_2122", n!"TedRR_1222"),
  (n!"BTRR_2133", n!"TedRR_1233"),
  (n!"BTRR_1211", n!"TedRR_2111"),
  (n!"BTRR_1222", n!"TedRR_2122"),
  (n!"BTRR_1233", n!"TedRR_2133"),
  (n!"EVLR_1121", n!"VdeLR_1112"),
  (n!"EVLR_2221", n!"VdeLR_2212"),
  (n!"EVLR_3321", n!"VdeLR_3312"),
  (n!"CVLL_2111", n!"VeuLL_1211"),
  (n!"CVLL_2122", n!"VeuLL_1222"),
  (n!"CVRR_2111", n!"VeuRR_1211"),
  (n!"CVRR_2122", n!"VeuRR_1222"),
  (n!"CVLR_2111", n!"VeuLR_1211"),
  (n!"CVLR_2122", n!"VeuLR_1222"),
  (n!"CSRL_2111", n!"SeuRL_1211"),
  (n!"CSRL_2122", n!"SeuRL_1222"),
  (n!"CSRL_1211", n!"SeuRL_2111"),
  (n!"CSRL_1222", n!"SeuRL_2122"),
  (n!"CSRR_2111", n!"SeuRR_1211"),
  (n!"CSRR_2122", n!"SeuRR_1222"),
  (n!"CSRR_1211", n!"SeuRR_2111"),
  (n!"CSRR_1222", n!"SeuRR_2122"),
  (n!"CTRR_2111", n!"TeuRR_1211"),
  (n!"CTRR_2122", n!"TeuRR_1222"),
  (n!"CTRR_1211", n!"TeuRR_2111"),
  (n!"CTRR_1222", n!"TeuRR_2122"),
  (n!"AVLL_1131", n!"VeeLL_1113"),
  (n!"AVLL_3331", n!"VeeLL_1333"),
  (n!"AVRR_1131", n!"VeeRR_1113"),
  (n!"AVRR_3331", n!"VeeRR_1333"),
  (n!"AVLR_1131", n!"VeeLR_1113"),
  (n!"AVLR_2231", n!"VeeLR_2213"),
  (n!"AVLR_3331", n!"VeeLR_3313"),
  (n!"AVLR_3111", n!"VeeLR_1311"),
  (n!"AVLR_3122", n!"VeeLR_1322"),
  (n!"AVLR_3133", n!"VeeLR_1333"),
  (n!"AVLR_2132", n!"VeeLR_1223"),
  (n!"ASRR_1131", n!"SeeRR_1113"),
  (n!"ASRR_2231", n!"SeeRR_1322"),
  (n!"ASRR_3331", n!"SeeRR_1333"),
  (n!"ASRR_1113", n!"SeeRR_1131"),
  (n!"ASRR_2213", n!"SeeRR_2231"),
  (n!"ASRR_3313", n!"SeeRR_3133"),
  (n!"ASRR_2312", n!"SeeRR_2132"),
  (n!"ASRR_2132", n!"SeeRR_1223"),
  (n!"BVLL_3111", n!"VedLL_1311"),
  (n!"BVLL_3122", n!"VedLL_1322"),
  (n!"BVLL_3133", n!"VedLL_1333"),
  (n!"BVRR_3111", n!"VedRR_1311"),
  (n!"BVRR_3122", n!"VedRR_1322"),
  (n!"BVRR_3133", n!"VedRR_1333"),
  (n!"BVLR_3111", n!"VedLR_1311"),
  (n!"BVLR_3122", n!"VedLR_1322"),
  (n!"BVLR_3133", n!"VedLR_1333"),
  (n!"BSRL_3111", n!"SedRL_1311"),
  (n!"BSRL_3122", n!"SedRL_1322"),
  (n!"BSRL_3133", n!"SedRL_1333"),
  (n!"BSRL_1311", n!"SedRL_3111"),
  (n!"BSRL_1322", n!"SedRL_3122"),
  (n!"BSRL_1333", n!"SedRL_3133"),
  (n!"BSRR_3111", n!"SedRR_1311"),
  (n!"BSRR_3122", n!"SedRR_1322"),
  (n!"BSRR_3133", n!"SedRR_1333"),
  (n!"BSRR_1311", n!"SedRR_3111"),
  (n!"BSRR_1322", n!"SedRR_3122"),
  (n!"BSRR_1333", n!"SedRR_3133"),
  (n!"BTRR_3111", n!"TedRR_1311"),
  (n!"BTRR_3122", n!"TedRR_1322"),
  (n!"BTRR_3133", n!"TedRR_1333"),
  (n!"BTRR_1311", n!"TedRR_3111"),
  (n!"BTRR_1322", n!"TedRR_3122"),
  (n!"BTRR_1333", n!"TedRR_3133"),
  (n!"EVLR_1131", n!"VdeLR_1113"),
  (n!"EVLR_2231", n!"VdeLR_2213"),
  (n!"EVLR_3331", n!"VdeLR_3313"),
  (n!"CVLL_3111", n!"VeuLL_1311"),
  (n!"CVLL_3122", n!"VeuLL_1322"),
  (n!"CVRR_3111", n!"VeuRR_1311"),
  (n!"CVRR_3122", n!"VeuRR_1322"),
  (n!"CVLR_3111", n!"VeuLR_1311"),
  (n!"CVLR_3122", n!"VeuLR_1322"),
  (n!"CSRL_3111", n!"SeuRL_1311"),
  (n!"CSRL_3122", n!"SeuRL_1322"),
  (n!"CSRL_1311", n!"SeuRL_3111"),
  (n!"CSRL_1322", n!"SeuRL_3122"),
  (n!"CSRR_3111", n!"SeuRR_1311"),
  (n!"CSRR_3122", n!"SeuRR_1322"),
  (n!"CSRR_1311", n!"SeuRR_3111"),
  (n!"CSRR_1322", n!"SeuRR_3122"),
  (n!"CTRR_3111", n!"TeuRR_1311"),
  (n!"CTRR_3122", n!"TeuRR_1322"),
  (n!"CTRR_1311", n!"TeuRR_3111"),
  (n!"CTRR_1322", n!"TeuRR_3122"),
  (n!"ASRR_1123", n!"SeeRR_1132"),
  (n!"ASRR_2223", n!"SeeRR_2232"),
  (n!"ASRR_3323", n!"SeeRR_3233"),
  (n!"ASRR_1132", n!"SeeRR_1123"),
  (n!"ASRR_2232", n!"SeeRR_2223"),
  (n!"ASRR_3332", n!"SeeRR_2333"),
  (n!"ASRR_1231", n!"SeeRR_1321"),
  (n!"ASRR_1321", n!"SeeRR_1231"),
  (n!"BSRL_2311", n!"SedRL_3211"),
  (n!"BSRL_2322", n!"SedRL_3222"),
  (n!"BSRL_2333", n!"SedRL_3233"),
  (n!"BSRL_3211", n!"SedRL_2311"),
  (n!"BSRL_3222", n!"SedRL_2322"),
  (n!"BSRL_3233", n!"SedRL_2333"),
  (n!"BSRR_2311", n!"SedRR_3211"),
  (n!"BSRR_2322", n!"SedRR_3222"),
  (n!"BSRR_2333", n!"SedRR_3233"),
  (n!"BSRR_3211", n!"SedRR_2311"),
  (n!"BSRR_3222", n!"SedRR_2322"),
  (n!"BSRR_3233", n!"SedRR_2333"),
  (n!"BTRR_2311", n!"TedRR_3211"),
  (n!"BTRR_2322", n!"TedRR_3222"),
  (n!"BTRR_2333", n!"TedRR_3233"),
  (n!"BTRR_3211", n!"TedRR_2311"),
  (n!"BTRR_3222", n!"TedRR_2322"),
  (n!"BTRR_3233", n!"TedRR_2333"),
  (n!"CSRL_2311", n!"SeuRL_3211"),
  (n!"CSRL_2322", n!"SeuRL_3222"),
  (n!"CSRL_3211", n!"SeuRL_2311"),
  (n!"CSRL_3222", n!"SeuRL_2322"),
  (n!"CSRR_2311", n!"SeuRR_3211"),
  (n!"CSRR_2322", n!"SeuRR_3222"),
  (n!"CSRR_3211", n!"SeuRR_2311"),
  (n!"CSRR_3222", n!"SeuRR_2322"),
  (n!"CTRR_2311", n!"TeuRR_3211"),
  (n!"CTRR_2322", n!"TeuRR_3222"),
  (n!"CTRR_3211", n!"TeuRR_2311"),
  (n!"CTRR_3222", n!"TeuRR_2322"),
  (n!"ASRR_1313", n!"SeeRR_3131"),
  (n!"ASRR_3131", n!"SeeRR_1313"),
  (n!"ASRR_2323", n!"SeeRR_3232"),
  (n!"ASRR_3232", n!"SeeRR_2323"),
  (n!"ASRR_1212", n!"SeeRR_2121"),
  (n!"ASRR_2121", n!"SeeRR_1212"),
  (n!"ASRR_1232", n!"SeeRR_2123"),
  (n!"ASRR_2123", n!"SeeRR_1232"),
  (n!"ASRR_1213", n!"SeeRR_2131"),
  (n!"ASRR_2131", n!"SeeRR_1213"),
  (n!"ASRR_1323", n!"SeeRR_3132"),
  (n!"ASRR_3132", n!"SeeRR_1323"),
  (n!"Q1R_23", n!"dgamma_32"),
  (n!"Q1R_32", n!"dgamma_23"),
  (n!"Q1R_13", n!"dgamma_31"),
  (n!"Q1R_31", n!"dgamma_13"),
  (n!"Q1R_12", n!"dgamma_21"),
  (n!"Q1R_21", n!"dgamma_12"),
  (n!"Q2R_23", n!"dG_32"),
  (n!"Q2R_32", n!"dG_23"),
  (n!"Q2R_13", n!"dG_31"),
  (n!"Q2R_31", n!"dG_13"),
  (n!"Q2R_12", n!"dG_21"),
  (n!"Q2R_21", n!"dG_12")]

/-- data/flavorkit_jms_conj.json -/
def tableFlavorkitConj : List (ℕ × ℕ) := [(n!"DVLL_2323", n!"VddLL_2323"),
  (n!"DVRR_2323", n!"VddRR_2323"),
  (n!"DVLR_2323", n!"V1ddLR_2323"),
  (n!"DVLL_1313", n!"VddLL_1313"),
  (n!"DVRR_1313", n!"VddRR_1313"),
  (n!"DVLR_1313", n!"V1ddLR_1313"),
  (n!"DVLL_1212", n!"VddLL_1212"),
  (n!"DVRR_1212", n!"VddRR_1212"),
  (n!"DVLR_1212", n!"V1ddLR_1212"),
  (n!"DVLL_1323", n!"VddLL_1323"),
  (n!"DVRR_1323", n!"VddRR_1323"),
  (n!"DVLR_1323", n!"V1ddLR_1323"),
  (n!"DVLR_2313", n!"V1ddLR_2313"),
  (n!"DVLL_1232", n!"VddLL_1232"),
  (n!"DVRR_1232", n!"VddRR_1232"),
  (n!"DVLR_1232", n!"V1ddLR_1232"),
  (n!"DVLR_2321", n!"V1ddLR_2321"),
  (n!"DVLL_1213", n!"VddLL_1213"),
  (n!"DVRR_1213", n!"VddRR_1213"),
  (n!"DVLR_1213", n!"V1ddLR_1213"),
  (n!"DVLR_1312", n!"V1ddLR_1312"),
  (n!"GVLL_3111", n!"VnueduLL_1131"),
  (n!"GVLL_3121", n!"VnueduLL_2131"),
  (n!"GVLL_3131", n!"VnueduLL_3131"),
  (n!"GVRL_3111", n!"VnueduLR_1131"),
  (n!"GVRL_3121", n!"VnueduLR_2131"),
  (n!"GVRL_3131", n!"VnueduLR_3131"),
  (n!"GSLL_3111", n!"SnueduRR_1131"),
  (n!"GSLL_3121", n!"SnueduRR_2131"),
  (n!"GSLL_3131", n!"SnueduRR_3131"),
  (n!"GSRL_3111", n!"SnueduRL_1131"),
  (n!"GSRL_3121", n!"SnueduRL_2131"),
  (n!"GSRL_3131", n!"SnueduRL_3131"),
  (n!"GVLL_3211", n!"VnueduLL_1132"),
  (n!"GVLL_3221", n!"VnueduLL_2132"),
  (n!"GVLL_3231", n!"VnueduLL_3132"),
  (n!"GVRL_3211", n!"VnueduLR_1132"),
  (n!"GVRL_3221", n!"VnueduLR_2132"),
  (n!"GVRL_3231", n!"VnueduLR_3132"),
  (n!"GSLL_3211", n!"SnueduRR_1132"),
  (n!"GSLL_3221", n!"SnueduRR_2132"),
  (n!"GSLL_3231", n!"SnueduRR_3132"),
  (n!"GSRL_3211", n!"SnueduRL_1132"),
  (n!"GSRL_3221", n!"SnueduRL_2132"),
  (n!"GSRL_3231", n!"SnueduRL_3132"),
  (n!"GVLL_2111", n!"VnueduLL_1121"),
  (n!"GVLL_2121", n!"VnueduLL_2121"),
  (n!"GVLL_2131", n!"VnueduLL_3121"),
  (n!"GVRL_2111", n!"VnueduLR_1121"),
  (n!"GVRL_2121", n!"VnueduLR_2121"),
  (n!"GVRL_2131", n!"VnueduLR_3121"),
  (n!"GSLL_2111", n!"SnueduRR_1121"),
  (n!"GSLL_2121", n!"SnueduRR_2121"),
  (n!"GSLL_2131", n!"SnueduRR_3121"),
  (n!"GSRL_2111", n!"SnueduRL_1121"),
  (n!"GSRL_2121", n!"SnueduRL_2121"),
  (n!"GSRL_2131", n!"SnueduRL_3121"),
  (n!"GVLL_2211", n!"VnueduLL_1122"),
  (n!"GVLL_2221", n!"VnueduLL_2122"),
  (n!"GVLL_2231", n!"VnueduLL_3122"),
  (n!"GVRL_2211", n!"VnueduLR_1122"),
  (n!"GVRL_2221", n!"VnueduLR_2122"),
  (n!"GVRL_2231", n!"VnueduLR_3122"),
  (n!"GSLL_2211", n!"SnueduRR_1122"),
  (n!"GSLL_2221", n!"SnueduRR_2122"),
  (n!"GSLL_2231", n!"SnueduRR_3122"),
  (n!"GSRL_2211", n!"SnueduRL_1122"),
  (n!"GSRL_2221", n!"SnueduRL_2122"),
  (n!"GSRL_2231", n!"SnueduRL_3122"),
  (n!"GVLL_1111", n!"VnueduLL_1111"),
  (n!"GVLL_1121", n!"VnueduLL_2111"),
  (n!"GVLL_1131", n!"VnueduLL_3111"),
  (n!"GVRL_1111", n!"VnueduLR_1111"),
  (n!"GVRL_1121", n!"VnueduLR_2111"),
  (n!"GVRL_1131", n!"VnueduLR_3111"),
  (n!"GSLL_1111", n!"SnueduRR_1111"),
  (n!"GSLL_1121", n!"SnueduRR_2111"),
  (n!"GSLL_1131", n!"SnueduRR_3111"),
  (n!"GSRL_1111", n!"SnueduRL_1111"),
  (n!"GSRL_1121", n!"SnueduRL_2111"),
  (n!"GSRL_1131", n!"SnueduRL_3111"),
  (n!"GVLL_1211", n!"VnueduLL_1112"),
  (n!"GVLL_1221", n!"VnueduLL_2112"),
  (n!"GVLL_1231", n!"VnueduLL_3112"),
  (n!"GVRL_1211", n!"VnueduLR_1112"),
  (n!"GVRL_1221", n!"VnueduLR_2112"),
  (n!"GVRL_1231", n!"VnueduLR_3112"),
  (n!"GSLL_1211", n!"SnueduRR_1112"),
  (n!"GSLL_1221", n!"SnueduRR_2112"),
  (n!"GSLL_1231", n!"SnueduRR_3112"),
  (n!"GSRL_1211", n!"SnueduRL_1112"),
  (n!"GSRL_1221", n!"SnueduRL_2112"),
  (n!"GSRL_1231", n!"SnueduRL_3112"),
  (n!"GVLL_3112", n!"VnueduLL_1231"),
  (n!"GVLL_3122", n!"VnueduLL_2231"),
  (n!"GVLL_3132", n!"VnueduLL_3231"),
  (n!"GVRL_3112", n!"VnueduLR_1231"),
  (n!"GVRL_3122", n!"VnueduLR_2231"),
  (n!"GVRL_3132", n!"VnueduLR_3231"),
  (n!"GSLL_3112", n!"SnueduRR_1231"),
  (n!"GSLL_3122", n!"SnueduRR_2231"),
  (n!"GSLL_3132", n!"SnueduRR_3231"),
  (n!"GSRL_3112", n!"SnueduRL_1231"),
  (n!"GSRL_3122", n!"SnueduRL_2231"),
  (n!"GSRL_3132", n!"SnueduRL_3231"),
  (n!"GVLL_3212", n!"VnueduLL_1232"),
  (n!"GVLL_3222", n!"VnueduLL_2232"),
  (n!"GVLL_3232", n!"VnueduLL_3232"),
  (n!"GVRL_3212", n!"VnueduLR_1232"),
  (n!"GVRL_3222", n!"VnueduLR_2232"),
  (n!"GVRL_3232", n!"VnueduLR_3232"),
  (n!"GSLL_3212", n!"SnueduRR_1232"),
  (n!"GSLL_3222", n!"SnueduRR_2232"),
  (n!"GSLL_3232", n!"SnueduRR_3232"),
  (n!"GSRL_3212", n!"SnueduRL_1232"),
  (n!"GSRL_3222", n!"SnueduRL_2232"),
  (n!"GSRL_3232", n!"SnueduRL_3232"),
  (n!"GVLL_2112", n!"VnueduLL_1221"),
  (n!"GVLL_2122", n!"VnueduLL_2221"),
  (n!"GVLL_2132", n!"VnueduLL_3221"),
  (n!"GVRL_2112", n!"VnueduLR_1221"),
  (n!"GVRL_2122", n!"VnueduLR_2221"),
  (n!"GVRL_2132", n!"VnueduLR_3221"),
  (n!"GSLL_2112", n!"SnueduRR_1221"),
  (n!"GSLL_2122", n!"SnueduRR_2221"),
  (n!"GSLL_2132", n!"SnueduRR_3221"),
  (n!"GSRL_2112", n!"SnueduRL_1221"),
  (n!"GSRL_2122", n!"SnueduRL_2221"),
  (n!"GSRL_2132", n!"SnueduRL_3221"),
  (n!"GVLL_2212", n!"VnueduLL_1222"),
  (n!"GVLL_2222", n!"VnueduLL_2222"),
  (n!"GVLL_2232", n!"VnueduLL_3222"),
  (n!"GVRL_2212", n!"VnueduLR_1222"),
  (n!"GVRL_2222", n!"VnueduLR_2222"),
  (n!"GVRL_2232", n!"VnueduLR_3222"),
  (n!"GSLL_2212", n!"SnueduRR_1222"),
  (n!"GSLL_2222", n!"SnueduRR_2222"),
  (n!"GSLL_2232", n!"SnueduRR_3222"),
  (n!"GSRL_2212", n!"SnueduRL_1222"),
  (n!"GSRL_2222", n!"SnueduRL_2222"),
  (n!"GSRL_2232", n!"SnueduRL_3222"),
  (n!"GVLL_1112", n!"VnueduLL_1211"),
  (n!"GVLL_1122", n!"VnueduLL_2211"),
  (n!"GVLL_1132", n!"VnueduLL_3211"),
  (n!"GVRL_1112", n!"VnueduLR_1211"),
  (n!"GVRL_1122", n!"VnueduLR_2211"),
  (n!"GVRL_1132", n!"VnueduLR_3211"),
  (n!"GSLL_1112", n!"SnueduRR_1211"),
  (n!"GSLL_1122", n!"SnueduRR_2211"),
  (n!"GSLL_1132", n!"SnueduRR_3211"),
  (n!"GSRL_1112", n!"SnueduRL_1211"),
  (n!"GSRL_1122", n!"SnueduRL_2211"),
  (n!"GSRL_1132", n!"SnueduRL_3211"),
  (n!"GVLL_1212", n!"VnueduLL_1212"),
  (n!"GVLL_1222", n!"VnueduLL_2212"),
  (n!"GVLL_1232", n!"VnueduLL_3212"),
  (n!"GVRL_1212", n!"VnueduLR_1212"),
  (n!"GVRL_1222", n!"VnueduLR_2212"),
  (n!"GVRL_1232", n!"VnueduLR_3212"),
  (n!"GSLL_1212", n!"SnueduRR_1212"),
  (n!"GSLL_1222", n!"SnueduRR_2212"),
  (n!"GSLL_1232", n!"SnueduRR_3212"),
  (n!"GSRL_1212", n!"SnueduRL_1212"),
  (n!"GSRL_1222", n!"SnueduRL_2212"),
  (n!"GSRL_1232", n!"SnueduRL_3212"),
  (n!"GVLL_3113", n!"VnueduLL_1331"),
  (n!"GVLL_3123", n!"VnueduLL_2331"),
  (n!"GVLL_3133", n!"VnueduLL_3331"),
  (n!"GVRL_3113", n!"VnueduLR_1331"),
  (n!"GVRL_3123", n!"VnueduLR_2331"),
  (n!"GVRL_3133", n!"VnueduLR_3331"),
  (n!"GSLL_3113", n!"SnueduRR_1331"),
  (n!"GSLL_3123", n!"SnueduRR_2331"),
  (n!"GSLL_3133", n!"SnueduRR_3331"),
  (n!"GSRL_3113", n!"SnueduRL_1331"),
  (n!"GSRL_3123", n!"SnueduRL_2331"),
  (n!"GSRL_3133", n!"SnueduRL_3331"),
  (n!"GVLL_3213", n!"VnueduLL_1332"),
  (n!"GVLL_3223", n!"VnueduLL_2332"),
  (n!"GVLL_3233", n!"VnueduLL_3332"),
  (n!"GVRL_3213", n!"VnueduLR_1332"),
  (n!"GVRL_3223", n!"VnueduLR_2332"),
  (n!"GVRL_3233", n!"VnueduLR_3332"),
  (n!"GSLL_3213", n!"SnueduRR_1332"),
  (n!"GSLL_3223", n!"SnueduRR_2332"),
  (n!"GSLL_3233", n!"SnueduRR_3332"),
  (n!"GSRL_3213", n!"SnueduRL_1332"),
  (n!"GSRL_3223", n!"SnueduRL_2332"),
  (n!"GSRL_3233", n!"SnueduRL_3332"),
  (n!"GVLL_2113", n!"VnueduLL_1321"),
  (n!"GVLL_2123", n!"VnueduLL_2321"),
  (n!"GVLL_2133", n!"VnueduLL_3321"),
  (n!"GVRL_2113", n!"VnueduLR_1321"),
  (n!"GVRL_2123", n!"VnueduLR_2321"),
  (n!"GVRL_2133", n!"VnueduLR_3321"),
  (n!"GSLL_2113", n!"SnueduRR_1321"),
  (n!"GSLL_2123", n!"SnueduRR_2321"),
  (n!"GSLL_2133", n!"SnueduRR_3321"),
  (n!"GSRL_2113", n!"SnueduRL_1321"),
  (n!"GSRL_2123", n!"SnueduRL_2321"),
  (n!"GSRL_2133", n!"SnueduRL_3321"),
  (n!"GVLL_2213", n!"VnueduLL_1322"),
  (n!"GVLL_2223", n!"VnueduLL_2322"),
  (n!"GVLL_2233", n!"VnueduLL_3322"),
  (n!"GVRL_2213", n!"VnueduLR_1322"),
  (n!"GVRL_2223", n!"VnueduLR_2322"),
  (n!"GVRL_2233", n!"VnueduLR_3322"),
  (n!"GSLL_2213", n!"SnueduRR_1322"),
  (n!"GSLL_2223", n!"SnueduRR_2322"),
  (n!"GSLL_2233", n!"SnueduRR_3322"),
  (n!"GSRL_2213", n!"SnueduRL_1322"),
  (n!"GSRL_2223", n!"SnueduRL_2322"),
  (n!"GSRL_2233", n!"SnueduRL_3322"),
  (n!"GVLL_1113", n!"VnueduLL_1311"),
  (n!"GVLL_1123", n!"VnueduLL_2311"),
  (n!"GVLL_1133", n!"VnueduLL_3311"),
  (n!"GVRL_1113", n!"VnueduLR_1311"),
  (n!"GVRL_1123", n!"VnueduLR_2311"),
  (n!"GVRL_1133", n!"VnueduLR_3311"),
  (n!"GSLL_1113", n!"SnueduRR_1311"),
  (n!"GSLL_1123", n!"SnueduRR_2311"),
  (n!"GSLL_1133", n!"SnueduRR_3311"),
  (n!"GSRL_1113", n!"SnueduRL_1311"),
  (n!"GSRL_1123", n!"SnueduRL_2311"),
  (n!"GSRL_1133", n!"SnueduRL_3311"),
  (n!"GVLL_1213", n!"VnueduLL_1312"),
  (n!"GVLL_1223", n!"VnueduLL_2312"),
  (n!"GVLL_1233", n!"VnueduLL_3312"),
  (n!"GVRL_1213", n!"VnueduLR_1312"),
  (n!"GVRL_1223", n!"VnueduLR_2312"),
  (n!"GVRL_1233", n!"VnueduLR_3312"),
  (n!"GSLL_1213", n!"SnueduRR_1312"),
  (n!"GSLL_1223", n!"SnueduRR_2312"),
  (n!"GSLL_1233", n!"SnueduRR_3312"),
  (n!"GSRL_1213", n!"SnueduRL_1312"),
  (n!"GSRL_1223", n!"SnueduRL_2312"),
  (n!"GSRL_1233", n!"SnueduRL_3312"),
  (n!"FVLL_2311", n!"VnudLL_1123"),
  (n!"FVLL_2322", n!"VnudLL_2223"),
  (n!"FVLL_2333", n!"VnudLL_3323"),
  (n!"FVLL_2312", n!"VnudLL_1223"),
  (n!"FVLL_2313", n!"VnudLL_1323"),
  (n!"FVLL_2323", n!"VnudLL_2323"),
  (n!"FVLL_3212", n!"VnudLL_1232"),
  (n!"FVLL_3213", n!"VnudLL_1332"),
  (n!"FVLL_3223", n!"VnudLL_2332"),
  (n!"FVRL_2311", n!"VnudLR_1123"),
  (n!"FVRL_2322", n!"VnudLR_2223"),
  (n!"FVRL_2333", n!"VnudLR_3323"),
  (n!"FVRL_2312", n!"VnudLR_1223"),
  (n!"FVRL_2313", n!"VnudLR_1323"),
  (n!"FVRL_2323", n!"VnudLR_2323"),
  (n!"FVRL_3212", n!"VnudLR_1232"),
  (n!"FVRL_3213", n!"VnudLR_1332"),
  (n!"FVRL_3223", n!"VnudLR_2332"),
  (n!"FVLL_1311", n!"VnudLL_1113"),
  (n!"FVLL_1322", n!"VnudLL_2213"),
  (n!"FVLL_1333", n!"VnudLL_3313"),
  (n!"FVLL_1312", n!"VnudLL_1213"),
  (n!"FVLL_1313", n!"VnudLL_1313"),
  (n!"FVLL_1323", n!"VnudLL_2313"),
  (n!"FVLL_3112", n!"VnudLL_1231"),
  (n!"FVLL_3113", n!"VnudLL_1331"),
  (n!"FVLL_3123", n!"VnudLL_2331"),
  (n!"FVRL_1311", n!"VnudLR_1113"),
  (n!"FVRL_1322", n!"VnudLR_2213"),
  (n!"FVRL_1333", n!"VnudLR_3313"),
  (n!"FVRL_1312", n!"VnudLR_1213"),
  (n!"FVRL_1313", n!"VnudLR_1313"),
  (n!"FVRL_1323", n!"VnudLR_2313"),
  (n!"FVRL_3112", n!"VnudLR_1231"),
  (n!"FVRL_3113", n!"VnudLR_1331"),
  (n!"FVRL_3123", n!"VnudLR_2331"),
  (n!"FVLL_2112", n!"VnudLL_1221"),
  (n!"FVLL_2113", n!"VnudLL_1321"),
  (n!"FVLL_2123", n!"VnudLL_2321"),
  (n!"FVLL_1212", n!"VnudLL_1212"),
  (n!"FVLL_1213", n!"VnudLL_1312"),
  (n!"FVLL_1223", n!"VnudLL_2312"),
  (n!"FVRL_2112", n!"VnudLR_1221"),
  (n!"FVRL_2113", n!"VnudLR_1321"),
  (n!"FVRL_2123", n!"VnudLR_2321"),
  (n!"FVRL_1212", n!"VnudLR_1212"),
  (n!"FVRL_1213", n!"VnudLR_1312"),
  (n!"FVRL_1223", n!"VnudLR_2312"),
  (n!"DVLL_2311", n!"VddLL_1123"),
  (n!"DVLL_2322", n!"VddLL_2223"),
  (n!"DVLL_2333", n!"VddLL_2333"),
  (n!"DVLL_1231", n!"VddLL_1231"),
  (n!"DVRR_2311", n!"VddRR_1123"),
  (n!"DVRR_2322", n!"VddRR_2223"),
  (n!"DVRR_2333", n!"VddRR_2333"),
  (n!"DVRR_1231", n!"VddRR_1231"),
  (n!"DVLR_2311", n!"V1ddLR_2311"),
  (n!"DVLR_2322", n!"V1ddLR_2322"),
  (n!"DVLR_2333", n!"V1ddLR_2333"),
  (n!"DVRL_2311", n!"V1ddLR_1123"),
  (n!"DVRL_2322", n!"V1ddLR_2223"),
  (n!"DVRL_2333", n!"V1ddLR_3323"),
  (n!"DVLR_1231", n!"V1ddLR_1231"),
  (n!"DVLR_1321", n!"V1ddLR_1321"),
  (n!"EVLL_2311", n!"VedLL_1123"),
  (n!"EVLL_2322", n!"VedLL_2223"),
  (n!"EVLL_2333", n!"VedLL_3323"),
  (n!"EVRR_2311", n!"VedRR_1123"),
  (n!"EVRR_2322", n!"VedRR_2223"),
  (n!"EVRR_2333", n!"VedRR_3323"),
  (n!"EVLR_2311", n!"VdeLR_2311"),
  (n!"EVLR_2322", n!"VdeLR_2322"),
  (n!"EVLR_2333", n!"VdeLR_2333"),
  (n!"EVRL_2311", n!"VedLR_1123"),
  (n!"EVRL_2322", n!"VedLR_2223"),
  (n!"EVRL_2333", n!"VedLR_3323"),
  (n!"DVLL_1311", n!"VddLL_1113"),
  (n!"DVLL_1322", n!"VddLL_1322"),
  (n!"DVLL_1333", n!"VddLL_1333"),
  (n!"DVRR_1311", n!"VddRR_1113"),
  (n!"DVRR_1322", n!"VddRR_1322"),
  (n!"DVRR_1333", n!"VddRR_1333"),
  (n!"DVLR_1311", n!"V1ddLR_1311"),
  (n!"DVLR_1322", n!"V1ddLR_1322"),
  (n!"DVLR_1333", n!"V1ddLR_1333"),
  (n!"DVRL_1311", n!"V1ddLR_1113"),
  (n!"DVRL_1322", n!"V1ddLR_2213"),
  (n!"DVRL_1333", n!"V1ddLR_3313"),
  (n!"DVLR_2312", n!"V1ddLR_2312"),
  (n!"EVLL_1311", n!"VedLL_1113"),
  (n!"EVLL_1322", n!"VedLL_2213"),
  (n!"EVLL_1333", n!"VedLL_3313"),
  (n!"EVRR_1311", n!"VedRR_1113"),
  (n!"EVRR_1322", n!"VedRR_2213"),
  (n!"EVRR_1333", n!"VedRR_3313"),
  (n!"EVLR_1311", n!"VdeLR_1311"),
  (n!"EVLR_1322", n!"VdeLR_1322"),
  (n!"EVLR_1333", n!"VdeLR_1333"),
  (n!"EVRL_1311", n!"VedLR_1113"),
  (n!"EVRL_1322", n!"VedLR_2213"),
  (n!"EVRL_1333", n!"VedLR_3313"),
  (n!"DVLL_1211", n!"VddLL_1112"),
  (n!"DVLL_1222", n!"VddLL_1222"),
  (n!"DVLL_1233", n!"VddLL_1233"),
  (n!"DVRR_1211", n!"VddRR_1112"),
  (n!"DVRR_1222", n!"VddRR_1222"),
  (n!"DVRR_1233", n!"VddRR_1233"),
  (n!"DVLR_1211", n!"V1ddLR_1211"),
  (n!"DVLR_1222", n!"V1ddLR_1222"),
  (n!"DVLR_1233", n!"V1ddLR_1233"),
  (n!"DVRL_1211", n!"V1ddLR_1112"),
  (n!"DVRL_1222", n!"V1ddLR_2212"),
  (n!"DVRL_1233", n!"V1ddLR_3312"),
  (n!"EVLL_1211", n!"VedLL_1112"),
  (n!"EVLL_1222", n!"VedLL_2212"),
  (n!"EVLL_1233", n!"VedLL_3312"),
  (n!"EVRR_1211", n!"VedRR_1112"),
  (n!"EVRR_1222", n!"VedRR_2212"),
  (n!"EVRR_1233", n!"VedRR_3312"),
  (n!"EVLR_1211", n!"VdeLR_1211"),
  (n!"EVLR_1222", n!"VdeLR_1222"),
  (n!"EVLR_1233", n!"VdeLR_1233"),
  (n!"EVRL_1211", n!"VedLR_1112"),
  (n!"EVRL_1222", n!"VedLR_2212"),
  (n!"EVRL_1233", n!"VedLR_3312"),
  (n!"EVLL_2312", n!"VedLL_1223"),
  (n!"EVRR_2312", n!"VedRR_1223"),
  (n!"EVLR_2312", n!"VdeLR_2312"),
  (n!"EVRL_2312", n!"VedLR_1223"),
  (n!"EVLL_3212", n!"VedLL_1232"),
  (n!"EVRR_3212", n!"VedRR_1232"),
  (n!"EVRL_3212", n!"VedLR_1232"),
  (n!"EVLL_2313", n!"VedLL_1323"),
  (n!"EVRR_2313", n!"VedRR_1323"),
  (n!"EVLR_2313", n!"VdeLR_2313"),
  (n!"EVRL_2313", n!"VedLR_1323"),
  (n!"EVLL_3213", n!"VedLL_1332"),
  (n!"EVRR_3213", n!"VedRR_1332"),
  (n!"EVRL_3213", n!"VedLR_1332"),
  (n!"EVLL_2323", n!"VedLL_2323"),
  (n!"EVRR_2323", n!"VedRR_2323"),
  (n!"EVLR_2323", n!"VdeLR_2323"),
  (n!"EVRL_2323", n!"VedLR_2323"),
  (n!"EVLL_3223", n!"VedLL_2332"),
  (n!"EVRR_3223", n!"VedRR_2332"),
  (n!"EVRL_3223", n!"VedLR_2332"),
  (n!"EVLL_1312", n!"VedLL_1213"),
  (n!"EVRR_1312", n!"VedRR_1213"),
  (n!"EVLR_1312", n!"VdeLR_1312"),
  (n!"EVRL_1312", n!"VedLR_1213"),
  (n!"EVLL_3112", n!"VedLL_1231"),
  (n!"EVRR_3112", n!"VedRR_1231"),
  (n!"EVRL_3112", n!"VedLR_1231"),
  (n!"EVLL_1313", n!"VedLL_1313"),
  (n!"EVRR_1313", n!"VedRR_1313"),
  (n!"EVLR_1313", n!"VdeLR_1313"),
  (n!"EVRL_1313", n!"VedLR_1313"),
  (n!"EVLL_3113", n!"VedLL_1331"),
  (n!"EVRR_3113", n!"VedRR_1331"),
  (n!"EVRL_3113", n!"VedLR_1331"),
  (n!"EVLL_1323", n!"VedLL_2313"),
  (n!"EVRR_1323", n!"VedRR_2313"),
  (n!"EVLR_1323", n!"VdeLR_1323"),
  (n!"EVRL_1323", n!"VedLR_2313"),
  (n!"EVLL_3123", n!"VedLL_2331"),
  (n!"EVRR_3123", n!"VedRR_2331"),
  (n!"EVRL_3123", n!"VedLR_2331"),
  (n!"EVLL_2112", n!"VedLL_1221"),
  (n!"EVRR_2112", n!"VedRR_1221"),
  (n!"EVRL_2112", n!"VedLR_1221"),
  (n!"EVLL_1212", n!"VedLL_1212"),
  (n!"EVRR_1212", n!"VedRR_1212"),
  (n!"EVLR_1212", n!"VdeLR_1212"),
  (n!"EVRL_1212", n!"VedLR_1212"),
  (n!"EVLL_2113", n!"VedLL_1321"),
  (n!"EVRR_2113", n!"VedRR_1321"),
  (n!"EVRL_2113", n!"VedLR_1321"),
  (n!"EVLL_1213", n!"VedLL_1312"),
  (n!"EVRR_1213", n!"VedRR_1312"),
  (n!"EVLR_1213", n!"VdeLR_1213"),
  (n!"EVRL_1213", n!"VedLR_1312"),
  (n!"EVLL_2123", n!"VedLL_2321"),
  (n!"EVRR_2123", n!"VedRR_2321"),
  (n!"EVRL_2123", n!"VedLR_2321"),
  (n!"EVLL_1223", n!"VedLL_2312"),
  (n!"EVRR_1223", n!"VedRR_2312"),
  (n!"EVLR_1223", n!"VdeLR_1223"),
  (n!"EVRL_1223", n!"VedLR_2312"),
  (n!"AVLR_2312", n!"VeeLR_2312"),
  (n!"AVLL_1123", n!"VeeLL_1123"),
  (n!"AVLL_2223", n!"VeeLL_2223"),
  (n!"AVLL_3323", n!"VeeLL_2333"),
  (n!"AVRR_1123", n!"VeeRR_1123"),
  (n!"AVRR_2223", n!"VeeRR_2223"),
  (n!"AVRR_3323", n!"VeeRR_2333"),
  (n!"AVLR_1123", n!"VeeLR_1123"),
  (n!"AVLR_2223", n!"VeeLR_2223"),
  (n!"AVLR_3323", n!"VeeLR_3323"),
  (n!"AVLR_2311", n!"VeeLR_2311"),
  (n!"AVLR_2322", n!"VeeLR_2322"),
  (n!"AVLR_2333", n!"VeeLR_2333"),
  (n!"AVLR_1231", n!"VeeLR_1231"),
  (n!"AVLR_1321", n!"VeeLR_1321"),
  (n!"BVLL_2311", n!"VedLL_2311"),
  (n!"BVLL_2322", n!"VedLL_2322"),
  (n!"BVLL_2333", n!"VedLL_2333"),
  (n!"BVRR_2311", n!"VedRR_2311"),
  (n!"BVRR_2322", n!"VedRR_2322"),
  (n!"BVRR_2333", n!"VedRR_2333"),
  (n!"BVLR_2311", n!"VedLR_2311"),
  (n!"BVLR_2322", n!"VedLR_2322"),
  (n!"BVLR_2333", n!"VedLR_2333"),
  (n!"EVLR_1123", n!"VdeLR_1123"),
  (n!"EVLR_2223", n!"VdeLR_2223"),
  (n!"EVLR_3323", n!"VdeLR_3323"),
  (n!"CVLL_2311", n!"VeuLL_2311"),
  (n!"CVLL_2322", n!"VeuLL_2322"),
  (n!"CVRR_2311", n!"VeuRR_2311"),
  (n!"CVRR_2322", n!"VeuRR_2322"),
  (n!"CVLR_2311", n!"VeuLR_2311"),
  (n!"CVLR_2322", n!"VeuLR_2322"),
  (n!"AVLL_1313", n!"VeeLL_1313"),
  (n!"AVRR_1313", n!"VeeRR_1313"),
  (n!"AVLR_1313", n!"VeeLR_1313"),
  (n!"AVLL_2323", n!"VeeLL_2323"),
  (n!"AVRR_2323", n!"VeeRR_2323"),
  (n!"AVLR_2323", n!"VeeLR_2323"),
  (n!"AVLL_1212", n!"VeeLL_1212"),
  (n!"AVRR_1212", n!"VeeRR_1212"),
  (n!"AVLR_1212", n!"VeeLR_1212"),
  (n!"AVLL_1232", n!"VeeLL_1232"),
  (n!"AVRR_1232", n!"VeeRR_1232"),
  (n!"AVLR_1232", n!"VeeLR_1232"),
  (n!"AVLR_2321", n!"VeeLR_2321"),
  (n!"AVLL_1213", n!"VeeLL_1213"),
  (n!"AVRR_1213", n!"VeeRR_1213"),
  (n!"AVLR_1213", n!"VeeLR_1213"),
  (n!"AVLR_1312", n!"VeeLR_1312"),
  (n!"AVLL_1323", n!"VeeLL_1323"),
  (n!"AVRR_1323", n!"VeeRR_1323"),
  (n!"AVLR_1323", n!"VeeLR_1323"),
  (n!"AVLR_2313", n!"VeeLR_2313")]

end Verif.Gen.WetPy
