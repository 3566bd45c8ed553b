import Verif.Model.Kalman
import Verif.Spec.ColdExact
import Verif.Model.SccdNum
/-!
# S-CCD with its own Kalman filter

The parameters of `Model/SccdNum.lean` for the matrix routines, over the real numbers: those of
`Model/Kalman.lean`.
-/
namespace Pycold.SccdNum

/-- `filter1step_validobs`, `src/cxx/KFAS.c` 49–127, on the six entries of a list. -/
noncomputable def kalmanValid (H y : ℝ) (a : List ℝ) (P : Kalman.Mat) : List ℝ × Kalman.Mat × ℝ :=
  let r := Kalman.valid (Kalman.ssm H) y (fun i => a.getD i 0) P
  (List.ofFn r.1, r.2.1, r.2.2)

/-- `filter1step_missingobs`, `src/cxx/KFAS.c` 10–46; it does not read the error variance. -/
noncomputable def kalmanMissing (P : Kalman.Mat) : Kalman.Mat := Kalman.missing (Kalman.ssm 0) P

/-- The program over the real numbers, with the matrix routines of `src/cxx/KFAS.c`, the initial covariance of
`src/cxx/s_ccd.c` 455–466 and 2648.  Covariances are stored without rounding. -/
noncomputable def withKalman (lasso robust : List (List ℝ) → List ℝ → List ℝ) (tcg gate pred junk : ℝ) :
    Env ℝ Kalman.Mat (Fin 6) :=
  program ColdNum.Spec.exact lasso robust tcg gate pred junk kalmanValid kalmanMissing Kalman.initP id 0

end Pycold.SccdNum
