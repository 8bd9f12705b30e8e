import Verif.Props.Products
import Verif.Props.Actions
import Verif.Props.WellFormed
import Verif.Lemmas.Inj

/-!
# C16: the action of a product is the composition of the actions

Generated by tools/gen_c16.py: all nine products of rotors, translators and motors, acting on
planes, lines and points.
-/

namespace Klein

open PGA PGA.MV

variable {K : Type} [CommRing K]

theorem sandwich_mul (a b x : MV K) :
    (a * b) * x * rev (a * b) = a * (b * x * rev b) * rev a := by
  rw [rev_mul]; simp only [mul_assoc]

theorem C16_rotor_rotor_plane (isa : Isa) (a : Rotor K) (b : Rotor K) (x : Plane K) :
    (a.mulRotor b).onPlane isa x = a.onPlane isa (b.onPlane isa x) := by
  rw [← Plane.mv_inj]
  rw [C13_rotor_on_plane isa (a.mulRotor b) x, C03_rotor_mul_rotor,
    C13_rotor_on_plane isa a _, C13_rotor_on_plane isa b x, sandwich_mul]

theorem C16_rotor_rotor_line (a : Rotor K) (b : Rotor K) (x : Line K) :
    ((a.mulRotor b).onLine x).mv = (a.onLine (b.onLine x)).mv := by
  rw [C13_rotor_on_line (a.mulRotor b) x, C03_rotor_mul_rotor,
    C13_rotor_on_line a _, C13_rotor_on_line b x, sandwich_mul]

theorem C16_rotor_rotor_point (isa : Isa) (a : Rotor K) (b : Rotor K) (x : Point K) :
    (a.mulRotor b).onPoint isa x = a.onPoint isa (b.onPoint isa x) := by
  rw [← Point.mv_inj]
  rw [C13_rotor_on_point isa (a.mulRotor b) x, C03_rotor_mul_rotor,
    C13_rotor_on_point isa a _, C13_rotor_on_point isa b x, sandwich_mul]

theorem C16_rotor_translator_plane (hw : Hw K) (isa : Isa) (a : Rotor K) (b : Translator K) (x : Plane K) (hb : b.WF) (h : hw.RcpAt 1) :
    (a.mulTranslator b).onPlane isa x = a.onPlane isa (b.onPlane hw isa x) := by
  rw [← Plane.mv_inj]
  rw [C15_motor_on_plane isa (a.mulTranslator b) x, C06_rotor_mul_translator _ _ hb,
    C13_rotor_on_plane isa a _, C14_translator_on_plane hw isa b x hb h, sandwich_mul]

theorem C16_rotor_translator_line (a : Rotor K) (b : Translator K) (x : Line K) (hb : b.WF) :
    ((a.mulTranslator b).onLine x).mv = (a.onLine (b.onLine x)).mv := by
  rw [C15_motor_on_line (a.mulTranslator b) x, C06_rotor_mul_translator _ _ hb,
    C13_rotor_on_line a _, C14_translator_on_line b x hb, sandwich_mul]

theorem C16_rotor_translator_point (isa : Isa) (a : Rotor K) (b : Translator K) (x : Point K) (hb : b.WF) :
    (a.mulTranslator b).onPoint x = a.onPoint isa (b.onPoint x) := by
  rw [← Point.mv_inj]
  rw [C15_motor_on_point (a.mulTranslator b) x, C06_rotor_mul_translator _ _ hb,
    C13_rotor_on_point isa a _, C14_translator_on_point b x, sandwich_mul]

theorem C16_translator_rotor_plane (hw : Hw K) (isa : Isa) (a : Translator K) (b : Rotor K) (x : Plane K) (ha : a.WF) (h : hw.RcpAt 1) :
    (a.mulRotor b).onPlane isa x = a.onPlane hw isa (b.onPlane isa x) := by
  rw [← Plane.mv_inj]
  rw [C15_motor_on_plane isa (a.mulRotor b) x, C06_translator_mul_rotor _ _ ha,
    C14_translator_on_plane hw isa a _ ha h, C13_rotor_on_plane isa b x, sandwich_mul]

theorem C16_translator_rotor_line (a : Translator K) (b : Rotor K) (x : Line K) (ha : a.WF) :
    ((a.mulRotor b).onLine x).mv = (a.onLine (b.onLine x)).mv := by
  rw [C15_motor_on_line (a.mulRotor b) x, C06_translator_mul_rotor _ _ ha,
    C14_translator_on_line a _ ha, C13_rotor_on_line b x, sandwich_mul]

theorem C16_translator_rotor_point (isa : Isa) (a : Translator K) (b : Rotor K) (x : Point K) (ha : a.WF) :
    (a.mulRotor b).onPoint x = a.onPoint (b.onPoint isa x) := by
  rw [← Point.mv_inj]
  rw [C15_motor_on_point (a.mulRotor b) x, C06_translator_mul_rotor _ _ ha,
    C14_translator_on_point a _, C13_rotor_on_point isa b x, sandwich_mul]

theorem C16_translator_translator_plane (hw : Hw K) (isa : Isa) (a : Translator K) (b : Translator K) (x : Plane K) (ha : a.WF) (hb : b.WF) (h : hw.RcpAt 1) :
    (a.mulTranslator b).onPlane hw isa x = a.onPlane hw isa (b.onPlane hw isa x) := by
  rw [← Plane.mv_inj]
  rw [C14_translator_on_plane hw isa (a.mulTranslator b) x (show (a.mulTranslator b).WF by simp_all [kln, sse]) h, C06_translator_mul_translator,
    C14_translator_on_plane hw isa a _ ha h, C14_translator_on_plane hw isa b x hb h, sandwich_mul]

theorem C16_translator_translator_line (a : Translator K) (b : Translator K) (x : Line K) (ha : a.WF) (hb : b.WF) :
    ((a.mulTranslator b).onLine x).mv = (a.onLine (b.onLine x)).mv := by
  rw [C14_translator_on_line (a.mulTranslator b) x (show (a.mulTranslator b).WF by simp_all [kln, sse]), C06_translator_mul_translator,
    C14_translator_on_line a _ ha, C14_translator_on_line b x hb, sandwich_mul]

theorem C16_translator_translator_point (a : Translator K) (b : Translator K) (x : Point K) :
    (a.mulTranslator b).onPoint x = a.onPoint (b.onPoint x) := by
  rw [← Point.mv_inj]
  rw [C14_translator_on_point (a.mulTranslator b) x, C06_translator_mul_translator,
    C14_translator_on_point a _, C14_translator_on_point b x, sandwich_mul]

theorem C16_rotor_motor_plane (isa : Isa) (a : Rotor K) (b : Motor K) (x : Plane K) :
    (a.mulMotor b).onPlane isa x = a.onPlane isa (b.onPlane isa x) := by
  rw [← Plane.mv_inj]
  rw [C15_motor_on_plane isa (a.mulMotor b) x, C06_rotor_mul_motor,
    C13_rotor_on_plane isa a _, C15_motor_on_plane isa b x, sandwich_mul]

theorem C16_rotor_motor_line (a : Rotor K) (b : Motor K) (x : Line K) :
    ((a.mulMotor b).onLine x).mv = (a.onLine (b.onLine x)).mv := by
  rw [C15_motor_on_line (a.mulMotor b) x, C06_rotor_mul_motor,
    C13_rotor_on_line a _, C15_motor_on_line b x, sandwich_mul]

theorem C16_rotor_motor_point (isa : Isa) (a : Rotor K) (b : Motor K) (x : Point K) :
    (a.mulMotor b).onPoint x = a.onPoint isa (b.onPoint x) := by
  rw [← Point.mv_inj]
  rw [C15_motor_on_point (a.mulMotor b) x, C06_rotor_mul_motor,
    C13_rotor_on_point isa a _, C15_motor_on_point b x, sandwich_mul]

theorem C16_motor_rotor_plane (isa : Isa) (a : Motor K) (b : Rotor K) (x : Plane K) :
    (a.mulRotor b).onPlane isa x = a.onPlane isa (b.onPlane isa x) := by
  rw [← Plane.mv_inj]
  rw [C15_motor_on_plane isa (a.mulRotor b) x, C06_motor_mul_rotor,
    C15_motor_on_plane isa a _, C13_rotor_on_plane isa b x, sandwich_mul]

theorem C16_motor_rotor_line (a : Motor K) (b : Rotor K) (x : Line K) :
    ((a.mulRotor b).onLine x).mv = (a.onLine (b.onLine x)).mv := by
  rw [C15_motor_on_line (a.mulRotor b) x, C06_motor_mul_rotor,
    C15_motor_on_line a _, C13_rotor_on_line b x, sandwich_mul]

theorem C16_motor_rotor_point (isa : Isa) (a : Motor K) (b : Rotor K) (x : Point K) :
    (a.mulRotor b).onPoint x = a.onPoint (b.onPoint isa x) := by
  rw [← Point.mv_inj]
  rw [C15_motor_on_point (a.mulRotor b) x, C06_motor_mul_rotor,
    C15_motor_on_point a _, C13_rotor_on_point isa b x, sandwich_mul]

theorem C16_translator_motor_plane (hw : Hw K) (isa : Isa) (a : Translator K) (b : Motor K) (x : Plane K) (ha : a.WF) (h : hw.RcpAt 1) :
    (a.mulMotor b).onPlane isa x = a.onPlane hw isa (b.onPlane isa x) := by
  rw [← Plane.mv_inj]
  rw [C15_motor_on_plane isa (a.mulMotor b) x, C06_translator_mul_motor _ _ ha,
    C14_translator_on_plane hw isa a _ ha h, C15_motor_on_plane isa b x, sandwich_mul]

theorem C16_translator_motor_line (a : Translator K) (b : Motor K) (x : Line K) (ha : a.WF) :
    ((a.mulMotor b).onLine x).mv = (a.onLine (b.onLine x)).mv := by
  rw [C15_motor_on_line (a.mulMotor b) x, C06_translator_mul_motor _ _ ha,
    C14_translator_on_line a _ ha, C15_motor_on_line b x, sandwich_mul]

theorem C16_translator_motor_point (a : Translator K) (b : Motor K) (x : Point K) (ha : a.WF) :
    (a.mulMotor b).onPoint x = a.onPoint (b.onPoint x) := by
  rw [← Point.mv_inj]
  rw [C15_motor_on_point (a.mulMotor b) x, C06_translator_mul_motor _ _ ha,
    C14_translator_on_point a _, C15_motor_on_point b x, sandwich_mul]

theorem C16_motor_translator_plane (hw : Hw K) (isa : Isa) (a : Motor K) (b : Translator K) (x : Plane K) (hb : b.WF) (h : hw.RcpAt 1) :
    (a.mulTranslator b).onPlane isa x = a.onPlane isa (b.onPlane hw isa x) := by
  rw [← Plane.mv_inj]
  rw [C15_motor_on_plane isa (a.mulTranslator b) x, C06_motor_mul_translator _ _ hb,
    C15_motor_on_plane isa a _, C14_translator_on_plane hw isa b x hb h, sandwich_mul]

theorem C16_motor_translator_line (a : Motor K) (b : Translator K) (x : Line K) (hb : b.WF) :
    ((a.mulTranslator b).onLine x).mv = (a.onLine (b.onLine x)).mv := by
  rw [C15_motor_on_line (a.mulTranslator b) x, C06_motor_mul_translator _ _ hb,
    C15_motor_on_line a _, C14_translator_on_line b x hb, sandwich_mul]

theorem C16_motor_translator_point (a : Motor K) (b : Translator K) (x : Point K) (hb : b.WF) :
    (a.mulTranslator b).onPoint x = a.onPoint (b.onPoint x) := by
  rw [← Point.mv_inj]
  rw [C15_motor_on_point (a.mulTranslator b) x, C06_motor_mul_translator _ _ hb,
    C15_motor_on_point a _, C14_translator_on_point b x, sandwich_mul]

theorem C16_motor_motor_plane (isa : Isa) (a : Motor K) (b : Motor K) (x : Plane K) :
    (a.mulMotor b).onPlane isa x = a.onPlane isa (b.onPlane isa x) := by
  rw [← Plane.mv_inj]
  rw [C15_motor_on_plane isa (a.mulMotor b) x, C06_motor_mul_motor,
    C15_motor_on_plane isa a _, C15_motor_on_plane isa b x, sandwich_mul]

theorem C16_motor_motor_line (a : Motor K) (b : Motor K) (x : Line K) :
    ((a.mulMotor b).onLine x).mv = (a.onLine (b.onLine x)).mv := by
  rw [C15_motor_on_line (a.mulMotor b) x, C06_motor_mul_motor,
    C15_motor_on_line a _, C15_motor_on_line b x, sandwich_mul]

theorem C16_motor_motor_point (a : Motor K) (b : Motor K) (x : Point K) :
    (a.mulMotor b).onPoint x = a.onPoint (b.onPoint x) := by
  rw [← Point.mv_inj]
  rw [C15_motor_on_point (a.mulMotor b) x, C06_motor_mul_motor,
    C15_motor_on_point a _, C15_motor_on_point b x, sandwich_mul]

/-- The hypotheses are satisfiable and the law is not trivial: a quarter turn (unnormalised) after
a translation differs from the other order. -/
example : let r : Rotor ℤ := ⟨⟨1, 0, 0, 1⟩⟩
    let t : Translator ℤ := ⟨⟨0, 3, 0, 0⟩⟩
    t.WF ∧ (r.mulTranslator t).onPoint (Point.mk3 1 2 3) = r.onPoint .sse3 (t.onPoint (Point.mk3 1 2 3)) ∧
    (t.mulRotor r).onPoint (Point.mk3 1 2 3) ≠ (r.mulTranslator t).onPoint (Point.mk3 1 2 3) := by
  decide

end Klein
