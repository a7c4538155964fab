import Verif.Model.Gradient
import Verif.Model.FloatsNmse
import Mathlib.Data.Real.Archimedean

/-
gradient.py with every operation rounded. `pow` and `cos` stand for numpy's power and cosine (the C library), whose accuracy is a hypothesis of the
theorems. Constants are rounded when the program is compiled. As in `Model/Floats` there is no overflow.
-/

namespace Verif.Model.Gradient

/-- a sum of terms `± c * lat ** k`, evaluated from left to right; `c` alone for `k = 0`, no power for `k = 1` -/
noncomputable def polyFl (R : Rounding ℝ) (pow : ℝ → ℕ → ℝ) (terms : List (Bool × ℝ × ℕ)) (x : ℝ) : ℝ :=
  leftSum R (terms.map (fun t =>
    let v := if t.2.2 = 0 then R.fl t.2.1 else R.fl (R.fl t.2.1 * (if t.2.2 = 1 then x else pow x t.2.2))
    if t.1 then -v else v))

/-- gradient.py 47-73: sign, coefficient, power -/
def radTerms : List (Bool × ℝ × ℕ) :=
  [(false, 8.05993093251779959604912e-107, 48),
   (true, 1.26581811418535723456176e-102, 46),
   (true, 9.10951565776720242021392e-98, 44),
   (false, 7.49821836126201522491765e-93, 42),
   (true, 2.27271626922827622448519e-88, 40),
   (true, 2.71379394439952534826763e-84, 38),
   (false, 6.14832871773468827219624e-79, 36),
   (true, 2.84993185787053811467259e-74, 34),
   (false, 3.04677525449067422497153e-70, 32),
   (false, 4.32285294849656618043972e-65, 30),
   (true, 3.09781963775152747156702e-60, 28),
   (false, 8.20657704323096444142572e-56, 26),
   (false, 2.18501284875664232841136e-51, 24),
   (true, 3.14445926697498412770696e-46, 22),
   (false, 1.33970531285992980064454e-41, 20),
   (true, 3.64729257084431972115219e-38, 18),
   (true, 3.19397401776292877914625e-32, 16),
   (false, 2.09755935705627800528960e-27, 14),
   (true, 3.93234660296994989005722e-23, 12),
   (true, 4.67346944715944948938249e-18, 10),
   (false, 5.23053397296821359502194e-13, 8),
   (true, 2.61499198791487361911660e-08, 6),
   (false, 6.57016735969856188450312e-04, 4),
   (true, 6.50322744547926518806010e0, 2),
   (false, 6378137.0, 0)]

/-- gradient.py 111-137: sign, coefficient, power -/
def arcTerms : List (Bool × ℝ × ℕ) :=
  [(false, 2.87086392358719396475614e-110, 49),
   (true, 4.70057315402553703681995e-106, 47),
   (true, 3.53313425533365879608994e-101, 45),
   (false, 3.04345577761664668327703e-96, 43),
   (true, 9.67472728333544072524681e-92, 41),
   (true, 1.21447793719117046293341e-87, 39),
   (false, 2.90023188160517270041180e-82, 37),
   (true, 1.42116269649485608032749e-77, 35),
   (false, 1.61140181088334593373753e-73, 33),
   (false, 2.43380700099386902295507e-68, 31),
   (true, 1.86438456247248912270599e-63, 29),
   (false, 5.30488110085042076590693e-59, 27),
   (false, 1.52542673636737189511924e-54, 25),
   (true, 2.38613771319829866779682e-49, 23),
   (false, 1.11344136742221455419521e-44, 21),
   (true, 3.35038232340852202916191e-41, 19),
   (true, 3.27913899018323295027126e-35, 17),
   (false, 2.44062113577649370926265e-30, 15),
   (true, 5.27941504241845042397655e-26, 13),
   (true, 7.41522084948104995730556e-21, 11),
   (false, 1.01433377184128234589268e-15, 9),
   (true, 6.52003144319804471773524e-11, 7),
   (false, 2.29342105667605006614878e-06, 5),
   (true, 3.78342436432244021373642e-02, 3),
   (false, 111319.490793273572647713, 1)]

/-- gradient.py 181: `_rad_lat_wgs84(lat) * np.cos(lat * d2r) * lon * d2r` -/
noncomputable def arcLonFl (R : Rounding ℝ) (pow : ℝ → ℕ → ℝ) (cos : ℝ → ℝ) (lon lat : ℝ) : ℝ :=
  R.fl (R.fl (R.fl (polyFl R pow radTerms lat * cos (R.fl (lat * R.fl d2r))) * lon) * R.fl d2r)

/-- the operations of `gradient` on coordinates and on data -/
structure GradArith where
  arcLat : ℝ → ℝ
  arcLon : ℝ → ℝ → ℝ
  round : ℝ → ℝ

/-- exact numbers -/
noncomputable def exactGrad : GradArith := ⟨arcLat, arcLon, id⟩

/-- every operation rounded -/
noncomputable def floatGrad (R : Rounding ℝ) (pow : ℝ → ℕ → ℝ) (cos : ℝ → ℝ) : GradArith := ⟨polyFl R pow arcTerms, arcLonFl R pow cos, R.fl⟩

/-- a rounded result that may be NaN or infinite -/
def roundX (f : ℝ → ℝ) : XF ℝ → XF ℝ
  | .fin x => .fin (f x)
  | x => x

/-- `np.gradient` (see `diffAt`) with rounded differences -/
def diffBy {α : Type} [Sub α] (round half : α → α) (n : ℕ) (f : ℕ → α) (i : ℕ) : α :=
  if i = 0 then round (f 1 - f 0) else if i = n - 1 then round (f (n - 1) - f (n - 2)) else round (half (round (f (i + 1) - f (i - 1))))

/-- see `npGradientAxis` -/
def npGradientAxisBy {α : Type} [Sub α] (round half : α → α) (k : ℕ) (a : Tensor α) : Except PyErr (Tensor α) :=
  match a.shape[k]? with
  | none => .error .axisError
  | some n => if n < 2 then .error .valueError else .ok ⟨a.shape, fun i => diffBy round half n (fun v => a.get (i.set k v)) (i.getD k 0)⟩

/-- see `npGradientFirstTwo` -/
noncomputable def npGradientFirstTwoBy (round : ℝ → ℝ) (data : Tensor (XF ℝ)) : Except PyErr (Tensor (XF ℝ) × Tensor (XF ℝ)) :=
  if data.shape.any (fun n => decide (n < 2)) then .error .valueError
  else match data.shape with
    | [] => .error .indexError
    | [n] => .ok (⟨[], fun _ => diffBy (roundX round) halfX n (fun v => data.get [v]) 0⟩, ⟨[], fun _ => diffBy (roundX round) halfX n (fun v => data.get [v]) 1⟩)
    | _ => do
      let g0 ← npGradientAxisBy (roundX round) halfX 0 data
      let g1 ← npGradientAxisBy (roundX round) halfX 1 data
      pure (g0, g1)

/-- gradient.py 184-271 (see `gradient`) -/
noncomputable def gradientBy (A : GradArith) (data : Data) (lon lat : Option (Tensor ℝ)) : Except PyErr (List Result) := do
  let c ← chooseCoords data lon lat
  let (lon2d, lat2d) ← to2d c.1 c.2
  let axis0loc := lat2d.map A.arcLat
  let axis1loc ← Tensor.zip A.arcLon lon2d lat2d
  let axis0dist ← npGradientAxisBy A.round halfR 0 axis0loc
  let axis1dist ← npGradientAxisBy A.round halfR 1 axis1loc
  if data.kind = .dataset then throw .typeError
  let grad ← npGradientFirstTwoBy A.round data.val
  let axis0grad ← Tensor.zip (fun (g : XF ℝ) (d : ℝ) => roundX A.round (g / .fin d)) grad.1 axis0dist
  let axis1grad ← Tensor.zip (fun (g : XF ℝ) (d : ℝ) => roundX A.round (g / .fin d)) grad.2 axis1dist
  let r0 ← wrap data.kind axis0grad lon2d lat2d
  let r1 ← wrap data.kind axis1grad lon2d lat2d
  pure [r0, r1]

end Verif.Model.Gradient
