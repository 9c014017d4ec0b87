import Verif.Model.SO3

/-! # Model of `gconv/geometry/s2.py` -/

namespace GConv.S2

open Real SO3

/-- `spherical_to_euclid`, s2.py:12-31, one row `(beta, gamma)`. -/
noncomputable def sphericalToEuclid (g : Fin 2 → ℝ) : Fin 3 → ℝ :=
  let beta := g 0
  let gamma := g 1
  ![sin beta * cos gamma, sin beta * sin gamma, cos beta]

/-- `euclid_to_spherical`, s2.py:34-49. -/
noncomputable def euclidToSpherical (x : Fin 3 → ℝ) : Fin 2 → ℝ :=
  ![arccos (x 2), atan2 (x 1) (x 0)]

/-- `random_s2`, s2.py:52-65; `draws` the outcomes of `torch.randn`. -/
noncomputable def randomS2 (draws : List (Fin 3 → ℝ)) : List (Fin 2 → ℝ) :=
  draws.map fun x => euclidToSpherical (fun i => x i / vnorm x)

/-- `geodesic_distance_s2`, s2.py:68-69. -/
noncomputable def geodesicDistanceS2 (r1 r2 : Fin 3 → ℝ) (eps : ℝ) : ℝ :=
  arccos (clamp (∑ i, r1 i * r2 i) (-1 + eps) (1 - eps))

/-- `spherical_to_euler`, s2.py:72-74. -/
def sphericalToEuler (g : List (Fin 2 → ℝ)) : Except PyErr (List Euler) :=
  .ok (g.map fun x => ![0, x 0, x 1])

/-- `spherical_to_euler_neg_gamma`, s2.py:77-79: `torch.hstack` of a one-dimensional `(N,)` and a
two-dimensional `(N, 2)` tensor concatenates along axis 0 and raises RuntimeError.  (For `N = 0` torch
skips the empty vector; not modelled.) -/
def sphericalToEulerNegGamma (_g : List (Fin 2 → ℝ)) : Except PyErr (List Euler) :=
  .error .runtimeError

/-- What `uniform_grid_s2` returns. -/
inductive Result
  | spherical (l : List (Fin 2 → ℝ))
  | euclidean (l : List (Fin 3 → ℝ))
  | euler (l : List Euler)
  | matrix (l : List Mat3)
  | quat (l : List Quat)

/-- `uniform_grid_s2`, s2.py:82-145.  `grid` is the spherical grid after the in-place repulsion.
An unknown parameterization leaves `param_fn` unassigned; it is used on the last line. -/
noncomputable def uniformGridS2 (grid : List (Fin 2 → ℝ)) (param : String) (negGamma : Bool) :
    Except PyErr Result := do
  let toSo3 := if negGamma then sphericalToEulerNegGamma else sphericalToEuler
  if param.toLower = "spherical" then return .spherical grid
  else if param.toLower = "euclidean" then return .euclidean (grid.map sphericalToEuclid)
  else if param.toLower = "euler" then
    let e ← toSo3 grid
    return .euler e
  else if param.toLower = "matrix" then
    let e ← toSo3 grid
    return .matrix (e.map (eulerToMatrix · defaultEpsETM))
  else if param.toLower = "quat" then
    let e ← toSo3 grid
    return .quat (e.map (eulerToQuat · defaultEpsETM))
  else .error .unboundLocalError

end GConv.S2
