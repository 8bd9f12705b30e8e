"""Generate lean/Verif/Props/Composition.lean (C16): 9 products x 3 entities."""
prods = [("Rotor","Rotor","mulRotor","Rotor"),("Rotor","Translator","mulTranslator","Motor"),
 ("Translator","Rotor","mulRotor","Motor"),("Translator","Translator","mulTranslator","Translator"),
 ("Rotor","Motor","mulMotor","Motor"),("Motor","Rotor","mulRotor","Motor"),
 ("Translator","Motor","mulMotor","Motor"),("Motor","Translator","mulTranslator","Motor"),
 ("Motor","Motor","mulMotor","Motor")]
out = '''import Verif.Props.Products
import Verif.Props.Actions
import Verif.Props.WellFormed
import Verif.Lemmas.Inj

/-!
# C16: the action of a product is the composition of the actions

Generated by tools/gen_c16.py: all nine products of rotors, translators and motors, acting on
planes, lines and points.
-/

namespace Klein

open PGA PGA.MV

variable {K : Type} [CommRing K]

theorem sandwich_mul (a b x : MV K) :
    (a * b) * x * rev (a * b) = a * (b * x * rev b) * rev a := by
  rw [rev_mul]; simp only [mul_assoc]

'''
isaneed = {("Rotor","Plane"):True,("Rotor","Point"):True,("Rotor","Line"):False,
 ("Motor","Plane"):True,("Motor","Point"):False,("Motor","Line"):False,
 ("Translator","Plane"):"hw",("Translator","Point"):False,("Translator","Line"):False}
def app(ent, v, X, x):
    n = isaneed[(ent,X)]
    args = {"hw":"hw isa ",True:"isa ",False:""}[n]
    return f"{v}.on{X} {args}{x}"
def thm(ent,X,v):
    base = {"Rotor":"C13_rotor","Motor":"C15_motor","Translator":"C14_translator"}[ent]
    t = f"{base}_on_{X.lower()}"
    if ent=="Translator" and X=="Plane":
        return f"{t} _ _ _ _ {v} h"
    if ent=="Translator" and X=="Line":
        return f"{t} _ _ {v}"
    return t
for (A,B,m,R) in prods:
    for X in ["Plane","Line","Point"]:
        name=f"C16_{A.lower()}_{B.lower()}_{X.lower()}"
        needhw = X=="Plane" and ("Translator" in (A,B,R))
        needisa = needhw or any(isaneed[(E,X)] for E in (A,B,R))
        hyps=""
        wfA = A=="Translator"; wfB = B=="Translator"
        # WF needed for product theorem with mixed or for plane/line actions
        prodwf = (A=="Translator")!=(B=="Translator")
        useA = wfA and (prodwf or X!="Point"); useB = wfB and (prodwf or X!="Point")
        if useA: hyps+=" (ha : a.WF)"
        if useB: hyps+=" (hb : b.WF)"
        if needhw: hyps+=" (h : hw.RcpAt 1)"
        binders=("(hw : Hw K) " if needhw else "")+("(isa : Isa) " if needisa else "")
        ab=f"(a.{m} b)"
        lhs=app(R,ab,X,"x"); rhs=app(A,"a",X,f"({app(B,'b',X,'x')})")
        prod=f"C06_{A.lower()}_mul_{B.lower()}"
        if A==B=="Rotor": prod="C03_rotor_mul_rotor"
        if prodwf:
            pr=f"{prod} _ _ {'ha' if A=='Translator' else 'hb'}"
        else: pr=prod
        if R=="Translator":
            wfR="(show (a.mulTranslator b).WF by simp_all [kln, sse])"
        else: wfR=""
        sa="ha"; sb="hb"
        steps=[thm(R,X,wfR),pr,thm(A,X,"ha"),thm(B,X,"hb")]
        if A==R: steps=[steps[0],steps[1],steps[2]]+([steps[3]] if True else [])
        # occurrences: lhs uses R thm first, rhs A thm, then B thm
        rw="rw ["+", ".join(steps)+", sandwich_mul]"
        eq = f"{lhs} = {rhs}" if X!="Line" else f"({lhs}).mv = ({rhs}).mv"
        pre = "" if X=="Line" else f"  rw [← {X}.mv_inj]\n"
        # explicit rewriting by calc-free approach
        body = pre
        body += f"  have e1 := {thm2(R,X,ab,'x',wfR)}\n" if False else ""
        out += f"theorem {name} {binders}(a : {A} K) (b : {B} K) (x : {X} K){hyps} :\n    {eq} := by\n{pre}"
        def inst(ent,v,arg,wf):
            base = {"Rotor":"C13_rotor","Motor":"C15_motor","Translator":"C14_translator"}[ent]
            t = f"{base}_on_{X.lower()}"
            n = isaneed[(ent,X)]
            a = {"hw":"hw isa ",True:"isa ",False:""}[n]
            e = f"{t} {a}{v} {arg}"
            if ent=="Translator" and X!="Point": e+=f" {wf}"
            if ent=="Translator" and X=="Plane": e+=" h"
            return e
        s1=inst(R,ab,"x",wfR); s3=inst(A,"a","_","ha"); s4=inst(B,"b","x","hb")
        out += f"  rw [{s1}, {pr},\n    {s3}, {s4}, sandwich_mul]\n\n"
out += '''/-- The hypotheses are satisfiable and the law is not trivial: a quarter turn (unnormalised) after
a translation differs from the other order. -/
example : let r : Rotor ℤ := ⟨⟨1, 0, 0, 1⟩⟩
    let t : Translator ℤ := ⟨⟨0, 3, 0, 0⟩⟩
    t.WF ∧ (r.mulTranslator t).onPoint (Point.mk3 1 2 3) = r.onPoint .sse3 (t.onPoint (Point.mk3 1 2 3)) ∧
    (t.mulRotor r).onPoint (Point.mk3 1 2 3) ≠ (r.mulTranslator t).onPoint (Point.mk3 1 2 3) := by
  decide

end Klein
'''
open('/verif/lean/Verif/Props/Composition.lean','w').write(out)
