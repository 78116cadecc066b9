import Mathlib.Analysis.SpecialFunctions.Trigonometric.Inverse
import Mathlib.Analysis.SpecialFunctions.Complex.Arg

/-! The conversions between geocentric (ECEF) and geodetic (latitude, longitude, altitude) coordinates
(dis-rs/src/utils.rs).

Simplification: the code computes with `f64`; here the same expressions, with the same constants read as exact decimals, are
computed in the real numbers. Rounding, overflow, the sign of zero and NaN (the centre of the Earth, where the code divides 0 by 0)
are not modelled: real division by zero gives zero, and outside its domain Mathlib's arc sine takes the nearest value instead of NaN
(`C60_defined` shows that this does not happen 300 km or more from the centre, `C60_interior_violated` where it does). `atan2(y, x)` is the argument of the complex number `x + y·i`, which lies in
(-π, π]. -/

namespace Verif.Dis.Geo

/-- utils.rs:5 `WGS_84_SEMI_MAJOR_AXIS`. -/
noncomputable def wgsA : ℝ := 6378137
/-- utils.rs:6 `E2`. -/
noncomputable def E2 : ℝ := 6.6943799901377997e-3
/-- utils.rs:7 `A1`. -/
noncomputable def A1 : ℝ := 4.2697672707157535e+4
/-- utils.rs:8 `A2`. -/
noncomputable def A2 : ℝ := 1.8230912546075455e+9
/-- utils.rs:9 `A3`. -/
noncomputable def A3 : ℝ := 1.4291722289812413e+2
/-- utils.rs:10 `A4`. -/
noncomputable def A4 : ℝ := 4.5577281365188637e+9
/-- utils.rs:11 `A5`. -/
noncomputable def A5 : ℝ := 4.2840589930055659e+4
/-- utils.rs:12 `A6`. -/
noncomputable def A6 : ℝ := 9.9330562000986220e-1

/-- utils.rs:34-46, the first approximation of the (absolute) latitude: `(latitude, s, ss, c)`. -/
noncomputable def guess (zp w r s2 c2 u v : ℝ) : ℝ × ℝ × ℝ × ℝ :=
  if c2 > 0.3 then
    let s := (zp / r) * (1.0 + c2 * (A1 + u + s2 * v) / r)
    let latitude := Real.arcsin s
    let ss := s * s
    let c := √(1.0 - ss)
    (latitude, s, ss, c)
  else
    let c := (w / r) * (1.0 - s2 * (A5 - u - c2 * v) / r)
    let latitude := Real.arccos c
    let ss := 1.0 - c * c
    let s := √ss
    (latitude, s, ss, c)

/-- utils.rs:48-57, one step of improvement: `(latitude, altitude)`. -/
noncomputable def improve (zp w : ℝ) (g0 : ℝ × ℝ × ℝ × ℝ) : ℝ × ℝ :=
  let (latitude, s, ss, c) := g0
  let g := 1.0 - E2 * ss
  let rg := wgsA / √g
  let rf := A6 * rg
  let u := w - rg * c
  let v := zp - rf * s
  let f := c * u + s * v
  let m := c * v - s * u
  let p := m / (rf / g + f)
  (latitude + p, f + m * p / 2.0)

/-- utils.rs:21-63 `ecef_to_geodetic_lla`: `(latitude, longitude, altitude)`. -/
noncomputable def ecefToLla (x y z : ℝ) : ℝ × ℝ × ℝ :=
  let zp := |z|
  let w2 := x * x + y * y
  let w := √w2
  let r2 := w2 + z * z
  let r := √r2
  let longitude := Complex.arg ⟨x, y⟩
  let s2 := z * z / r2
  let c2 := w2 / r2
  let u := A2 / r
  let v := A3 - A4 / r
  let (latitude, altitude) := improve zp w (guess zp w r s2 c2 u v)
  let latitude := if z < 0.0 then latitude * (-1.0) else latitude
  (latitude, longitude, altitude)

/-- utils.rs:71-79 `geodetic_lla_to_ecef`: `(x, y, z)`. -/
noncomputable def llaToEcef (latitude longitude altitude : ℝ) : ℝ × ℝ × ℝ :=
  let n := wgsA / √(1.0 - E2 * Real.sin latitude * Real.sin latitude)
  ((n + altitude) * Real.cos latitude * Real.cos longitude,
   (n + altitude) * Real.cos latitude * Real.sin longitude,
   (n * (1.0 - E2) + altitude) * Real.sin latitude)

end Verif.Dis.Geo
