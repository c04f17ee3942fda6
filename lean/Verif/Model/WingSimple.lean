import Mathlib.Analysis.SpecialFunctions.Pow.Real
import Mathlib.Analysis.SpecialFunctions.Trigonometric.Deriv

/-!
# Bending factor of a simple wing (FLOPS)

Hand-written model of `SimpleWingBendingFact`, aviary/subsystems/mass/flops_based/wing_simple.py:7-159, over the reals.
-/

noncomputable section
namespace Verif.WingSimple

/-- Inputs, aviary/subsystems/mass/flops_based/wing_simple.py:46-54. -/
structure In where
  fstrt : ℝ
  span : ℝ
  tr : ℝ
  area : ℝ
  tca : ℝ
  faert : ℝ
  ar : ℝ
  sweep : ℝ

/-- `C4`, aviary/subsystems/mass/flops_based/wing_simple.py:56. -/
def c4 (i : In) : ℝ := 1 - 0.5 * i.faert

/-- `C6`, aviary/subsystems/mass/flops_based/wing_simple.py:57. -/
def c6 (i : In) : ℝ := 0.5 * i.faert - 0.16 * i.fstrt

/-- `caya`, aviary/subsystems/mass/flops_based/wing_simple.py:59-62. -/
def caya (ar : ℝ) : ℝ := if ar ≤ 5 then 0 else ar - 5

/-- `tlam`, the tangent of the sweep at three quarters of the chord, aviary/subsystems/mass/flops_based/wing_simple.py:64. -/
def tlam (i : In) : ℝ := Real.tan (Real.pi / 180 * i.sweep) - 2 * (1 - i.tr) / (i.ar * (1 + i.tr))

/-- `slam` of a `tlam`, aviary/subsystems/mass/flops_based/wing_simple.py:66. -/
def slam (t : ℝ) : ℝ := t / (1 + t ^ 2) ^ (0.5 : ℝ)

/-- `cayl` of `slam`, `C6`, `caya` and `C4`, aviary/subsystems/mass/flops_based/wing_simple.py:68. -/
def cayl (s c6 ca c4 : ℝ) : ℝ := (1 - s ^ 2) * (1 + c6 * s ^ 2 + 0.03 * ca * c4 * s)

/-- `cayl` of the inputs, aviary/subsystems/mass/flops_based/wing_simple.py:56-68. -/
def kayl (i : In) : ℝ := cayl (slam (tlam i)) (c6 i) (caya i.ar) (c4 i)

/-- `BENDING_MATERIAL_FACTOR`, aviary/subsystems/mass/flops_based/wing_simple.py:70-74. -/
def bend (i : In) : ℝ :=
  0.215 * (0.37 + 0.7 * i.tr) * (i.span ^ 2 / i.area) ^ (1 - 0.25 * i.fstrt) / (kayl i * i.tca)

/-- `ENG_POD_INERTIA_FACTOR`, aviary/subsystems/mass/flops_based/wing_simple.py:76. -/
def pod (n : ℕ) : ℝ := 1 - 0.03 * n

/-! ### Partials -/

/-- `dtlam_sweep`, aviary/subsystems/mass/flops_based/wing_simple.py:100. -/
def dtSweep (i : In) : ℝ := Real.pi / 180 / Real.cos (Real.pi / 180 * i.sweep) ^ 2

/-- `dtlam_ar`, aviary/subsystems/mass/flops_based/wing_simple.py:101. -/
def dtAr (i : In) : ℝ := 2 * (1 - i.tr) / (i.ar * (i.ar * (1 + i.tr)))

/-- `dtlam_tr`, aviary/subsystems/mass/flops_based/wing_simple.py:102. -/
def dtTr (i : In) : ℝ := 2 * (1 / (i.ar * (1 + i.tr)) + (1 - i.tr) / (i.ar * (1 + i.tr)) ^ 2 * i.ar)

/-- `dslam`, aviary/subsystems/mass/flops_based/wing_simple.py:104-106. -/
def dslam (t : ℝ) : ℝ := 1 / (1 + t ^ 2) ^ (0.5 : ℝ) - t ^ 2 / (1 + t ^ 2) ^ (1.5 : ℝ)

/-- `dcayl_slam`, aviary/subsystems/mass/flops_based/wing_simple.py:108-111. -/
def dcSlam (s c6 ca c4 : ℝ) : ℝ := -2 * s * (1 + c6 * s ^ 2 + 0.03 * ca * c4 * s) + (1 - s ^ 2) * (2 * s * c6 + 0.03 * ca * c4)

/-- `dcayl_faert`, aviary/subsystems/mass/flops_based/wing_simple.py:112. -/
def dcFaert (s ca : ℝ) : ℝ := (1 - s ^ 2) * s * 0.5 * (s - 0.03 * ca)

/-- `dcayl_fstrt`, aviary/subsystems/mass/flops_based/wing_simple.py:113. -/
def dcFstrt (s : ℝ) : ℝ := -(1 - s ^ 2) * 0.16 * s ^ 2

/-- `dcayl_ar`, aviary/subsystems/mass/flops_based/wing_simple.py:92-94, 114-115. -/
def dcAr (ar s c4 : ℝ) : ℝ := if ar > 5 then (1 - s ^ 2) * 0.03 * c4 * s else 0

/-- `term1` of the bending factor, aviary/subsystems/mass/flops_based/wing_simple.py:120. -/
def t1 (i : In) : ℝ := 0.37 + 0.7 * i.tr

/-- `ems`, aviary/subsystems/mass/flops_based/wing_simple.py:117. -/
def ems (i : In) : ℝ := 1 - 0.25 * i.fstrt

/-- `term2a`, aviary/subsystems/mass/flops_based/wing_simple.py:121. -/
def t2a (i : In) : ℝ := i.span ^ 2 / i.area

/-- `term2`, aviary/subsystems/mass/flops_based/wing_simple.py:122. -/
def t2 (i : In) : ℝ := t2a i ^ ems i

/-- `term3`, aviary/subsystems/mass/flops_based/wing_simple.py:123. -/
def t3 (i : In) : ℝ := 1 / (kayl i * i.tca)

/-- `dbend_exp`, aviary/subsystems/mass/flops_based/wing_simple.py:124. -/
def dbExp (i : In) : ℝ := -0.215 * t1 i * t2 i * t3 i * Real.log (t2a i) * 0.25

/-- `dbend_tr`, aviary/subsystems/mass/flops_based/wing_simple.py:125. -/
def dbTr (i : In) : ℝ := 0.215 * 0.7 * t2 i * t3 i

/-- `dbend_cayl`, aviary/subsystems/mass/flops_based/wing_simple.py:126. -/
def dbCayl (i : In) : ℝ := -0.215 * t1 i * t2 i * i.tca * t3 i ^ 2

/-- `dcayl_slam * dslam` at the inputs, aviary/subsystems/mass/flops_based/wing_simple.py:104-111. -/
def dcT (i : In) : ℝ := dcSlam (slam (tlam i)) (c6 i) (caya i.ar) (c4 i) * dslam (tlam i)

/-- `J` by the strut bracing factor, aviary/subsystems/mass/flops_based/wing_simple.py:128-130. -/
def jFstrt (i : In) : ℝ := dbExp i + dbCayl i * dcFstrt (slam (tlam i))

/-- `J` by the span, aviary/subsystems/mass/flops_based/wing_simple.py:132-134. -/
def jSpan (i : In) : ℝ := 2 * 0.215 * t1 i * ems i * t2a i ^ (ems i - 1) * t3 i * i.span / i.area

/-- `J` by the taper ratio, aviary/subsystems/mass/flops_based/wing_simple.py:136-138. -/
def jTr (i : In) : ℝ := dbTr i + dbCayl i * (dcT i * dtTr i)

/-- `J` by the area, aviary/subsystems/mass/flops_based/wing_simple.py:140-142. -/
def jArea (i : In) : ℝ := -0.215 * t1 i * ems i * t2a i ^ (ems i - 1) * t3 i * t2a i / i.area

/-- `J` by the thickness to chord, aviary/subsystems/mass/flops_based/wing_simple.py:144-146. -/
def jTca (i : In) : ℝ := -0.215 * t1 i * t2 i * kayl i * t3 i ^ 2

/-- `J` by the tailoring factor, aviary/subsystems/mass/flops_based/wing_simple.py:148-151. -/
def jFaert (i : In) : ℝ := dbCayl i * dcFaert (slam (tlam i)) (caya i.ar)

/-- `J` by the aspect ratio, aviary/subsystems/mass/flops_based/wing_simple.py:153-155. -/
def jAr (i : In) : ℝ := dbCayl i * (dcAr i.ar (slam (tlam i)) (c4 i) + dcT i * dtAr i)

/-- `J` by the sweep, aviary/subsystems/mass/flops_based/wing_simple.py:157-159. -/
def jSweep (i : In) : ℝ := dbCayl i * (dcT i * dtSweep i)

end Verif.WingSimple
