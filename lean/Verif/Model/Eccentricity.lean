import Verif.Model.Distributions

/-!
# Eccentricity priors — src/exoplanet/distributions/eccentricity.py

The calls are inside a model context (`pm.modelcontext(model)` raises otherwise); the citations are in `Model/Citations`.
-/

namespace Exo
open scoped ENNReal
open MeasureTheory

/-- The name of a variable registered inside `with pm.Model(name=name)`. -/
def subName (b : Backend) (name s : String) : String :=
  match b with
  | .pymc3 => name ++ "_" ++ s
  | .pymc => name ++ "::" ++ s

/-- `lower=…`/`upper=…` as keyword value. -/
def optVal : Option ℝ → Val
  | some x => Val.ofReal x
  | none => .none

/-- `_truncate(name, dist, lower=…, upper=…, **kwargs)` (eccentricity.py:253-261). -/
def truncate (b : Backend) (name : String) (f : Family) (lower upper : Option ℝ) (kwargs : Kwargs) : Reg :=
  match b with
  | .pymc3 => .free name (.bound f (withInitval b kwargs) lower upper) (withInitval b kwargs)
  | .pymc =>
    let (initval, kwargs) := popInitval kwargs .none
    .free name (.truncated f kwargs lower upper) [("lower", optVal lower), ("upper", optVal upper), ("initval", initval)]

/-- `_truncate_dist(dist, lower=…, upper=…, **kwargs)` (eccentricity.py:264-269). -/
def truncateDist (b : Backend) (f : Family) (lower upper : Option ℝ) (kwargs : Kwargs) : Except PyErr Dist :=
  match b with
  | .pymc3 => .error (.notImplemented "_truncate_dist")
  | .pymc => .ok (.truncated f kwargs lower upper)

/-- One hyperparameter: `_truncate(s, pm.Normal, lower=0, upper=…, mu=mu, sigma=sd, **_with_initval(initval=mu))` inside
`with pm.Model(name=name)` (eccentricity.py:65-80, 198-222). -/
def hyper (b : Backend) (name s : String) (upper : Option ℝ) (mu sd : ℝ) : Reg :=
  truncate b (subName b name s) .normal (some 0) upper
    ([("mu", Val.ofReal mu), ("sigma", Val.ofReal sd)] ++ withInitval b [("initval", Val.ofReal mu)])

/-- The parameters of `kipping13` (eccentricity.py:36-55): `alpha_mu, alpha_sd, beta_mu, beta_sd`. -/
noncomputable def kippingParams (long : Option Bool) : ℝ × ℝ × ℝ × ℝ :=
  match long with
  | none => (1.12, 0.1, 3.09, 0.3)
  | some true => (1.12, 0.1, 3.09, 0.3)
  | some false => (0.697, 0.4, 3.27, 0.3)

/-- `eccentricity.py:57-80`: the registered hyperparameters, and `alpha`, `beta`. -/
noncomputable def kippingHyper (b : Backend) (name : String) (fixed : Bool) (long : Option Bool) :
    List Reg × Val × Val :=
  let (am, asd, bm, bsd) := kippingParams long
  if fixed then ([], Val.ofReal am, Val.ofReal bm)
  else ([hyper b name "alpha" none am asd, hyper b name "beta" none bm bsd],
    .num (fun σ => σ (subName b name "alpha")), .num (fun σ => σ (subName b name "beta")))

/-- `eccentricity.py:82-122`, with bounds. -/
noncomputable def kippingBounded (b : Backend) (name : String) (alpha beta : Val) (lower upper : ℝ) (ecc : Val)
    (kwargs : Kwargs) : Except PyErr Reg :=
  match ecc with
  | .num e =>
    match b with
    | .pymc3 => .error (.notImplemented "observed eccentricity with bounds")
    | .pymc => do
      let kw ← Kwargs.merge [("alpha", alpha), ("beta", beta)] kwargs
      let dist ← truncateDist b .beta (some lower) (some upper) kw
      .ok (.potential name (fun σ => dist.logp σ (e σ)))
  | _ => do
    let (iv, kwargs) := popInitval kwargs (Val.ofReal (0.5 * (lower + upper)))
    let kw ← Kwargs.merge [("alpha", alpha), ("beta", beta)] (withInitval b (kwargs.set "initval" iv))
    .ok (truncate b name .beta (some lower) (some upper) kw)

/-- `eccentricity.py:82-122`, without bounds. -/
noncomputable def kippingUnbounded (name : String) (alpha beta : Val) (ecc : Val) (kwargs : Kwargs) : Except PyErr Reg :=
  match ecc with
  | .num e => do
    let kw ← Kwargs.merge [("alpha", alpha), ("beta", beta)] kwargs
    .ok (.potential name (fun σ => (Dist.plain .beta kw).logp σ (e σ)))
  | _ => do
    let kw ← Kwargs.merge [("alpha", alpha), ("beta", beta)] kwargs
    .ok (pmVar .beta name kw)

/-- `kipping13(name, fixed, long, lower, upper, **kwargs)` (eccentricity.py:10-122): the registrations; the last one is returned.
`observed` is `None` or a number/tensor. -/
noncomputable def kipping13 (b : Backend) (name : String) (fixed : Bool) (long : Option Bool) (lower upper : Option ℝ)
    (kwargs : Kwargs) : Except PyErr (List Reg) :=
  let (hypers, alpha, beta) := kippingHyper b name fixed long
  let (ecc, kwargs) := kwargs.pop "observed" .none
  let last :=
    match lower, upper with
    | none, none => kippingUnbounded name alpha beta ecc kwargs
    | lower, upper => kippingBounded b name alpha beta (lower.getD 0) (upper.getD 1) ecc kwargs
  match last with
  | .error e => .error e
  | .ok r => .ok (hypers ++ [r])

/-- `pm.math.logaddexp(a, b)`. -/
noncomputable def logaddexp (a b : EReal) : EReal := ENNReal.log (EReal.exp a + EReal.exp b)

/-- `frac_mu, frac_sd` (eccentricity.py:164-169). -/
noncomputable def vaneylenFrac (multi : Bool) : ℝ × ℝ := if multi then (0.08, 0.08) else (0.76, 0.2)

/-- `eccentricity.py:193-222`: hyperparameters and `sigma_gauss`, `sigma_rayleigh`, `frac`. -/
noncomputable def vaneylenHyper (b : Backend) (name : String) (fixed multi : Bool) :
    List Reg × (State → ℝ) × (State → ℝ) × (State → ℝ) :=
  if fixed then ([], fun _ => 0.049, fun _ => 0.26, fun _ => (vaneylenFrac multi).1)
  else ([hyper b name "sigma_gauss" none 0.049 0.02, hyper b name "sigma_rayleigh" none 0.26 0.05,
      hyper b name "frac" (some 1) (vaneylenFrac multi).1 (vaneylenFrac multi).2],
    fun σ => σ (subName b name "sigma_gauss"), fun σ => σ (subName b name "sigma_rayleigh"), fun σ => σ (subName b name "frac"))

/-- `eccentricity.py:172-190`: the eccentricity, and what is registered for it. -/
noncomputable def vaneylenEcc (b : Backend) (name : String) (lower upper : ℝ) (kwargs : Kwargs) :
    Except PyErr (Reg × (State → ℝ)) :=
  let (ecc, kwargs) := kwargs.pop "observed" .none
  match Kwargs.merge [("lower", Val.ofReal lower), ("upper", Val.ofReal upper)] kwargs with
  | .error e => .error e
  | .ok kw =>
    match ecc, b with
    | .num e, .pymc => .ok (.potential name (fun σ => (Dist.plain .uniform kw).logp σ (e σ)), e)
    | _, _ => .ok (pmVar .uniform name kw, fun σ => σ name)

/-- `vaneylen19(name, fixed, multi, lower, upper, **kwargs)` (eccentricity.py:125-237): the registrations; the first one is
returned. -/
noncomputable def vaneylen19 (b : Backend) (name : String) (fixed multi : Bool) (lower upper : Option ℝ) (kwargs : Kwargs) :
    Except PyErr (List Reg) :=
  match vaneylenEcc b name (lower.getD 0) (upper.getD 1) kwargs with
  | .error e => .error e
  | .ok (r, ecc) =>
    let (hypers, sigma_gauss, sigma_rayleigh, frac) := vaneylenHyper b name fixed multi
    let gauss := Dist.plain .halfNormal [("sigma", .num sigma_gauss)]
    let rayleigh := Dist.plain .weibull [("alpha", Val.ofReal 2), ("beta", .num (fun σ => Real.sqrt 2 * sigma_rayleigh σ))]
    .ok ([r] ++ hypers ++ [.potential (subName b name "prior") (fun σ =>
      logaddexp (ptLog (1 - frac σ) + gauss.logp σ (ecc σ)) (ptLog (frac σ) + rayleigh.logp σ (ecc σ)))])

end Exo
