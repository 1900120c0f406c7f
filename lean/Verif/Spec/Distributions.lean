import Verif.Model.Distributions

/-!
# What the distribution helpers should do (C48-C54)
-/

namespace Exo
open MeasureTheory
open scoped ENNReal

/-- A (not normalised) law is uniform on `S`: proportional to length or area on `S`, with no mass elsewhere. -/
def UniformOn {α : Type} [MeasureSpace α] (μ : Measure α) (S : Set α) : Prop :=
  ∃ c : ℝ≥0∞, c ≠ 0 ∧ c ≠ ⊤ ∧ μ = c • (volume : Measure α).restrict S

/-- The open unit disc. -/
def unitDisc : Set (ℝ × ℝ) := {q | q.1 ^ 2 + q.2 ^ 2 < 1}

/-- The physical quadratic limb-darkening coefficients (Kipping 2013): positive and monotone brightness. -/
def physicalTriangle : Set (ℝ × ℝ) := {u | u.1 + u.2 < 1 ∧ 0 < u.1 ∧ 0 < u.1 + 2 * u.2}

/-- The surface brightness at `mu = cos θ`, relative to the centre of the disc. -/
def brightness (u : ℝ × ℝ) (mu : ℝ) : ℝ := 1 - u.1 * (1 - mu) - u.2 * (1 - mu) ^ 2

/-- Keyword arguments that do not change the distributions: start values, shapes, the model. -/
def PlainKwargs (K : Kwargs) : Prop := ∀ p ∈ K, p.1 ∈ ["initval", "testval", "shape", "dims", "model"]

/-- `x` is strictly inside the limits of a bounded distribution. -/
def Dist.Interior (d : Dist) (σ : State) (x : ℝ) : Prop :=
  match d with
  | .plain .uniform p => (p.get "lower" .none).toNum 0 σ < x ∧ x < (p.get "upper" .none).toNum 1 σ
  | .plain _ _ => True
  | .truncated _ _ lo hi | .bound _ _ lo hi => (∀ l, lo = some l → l < x) ∧ (∀ u, hi = some u → x < u)

/-- The states a sampler visits: the joint density is not zero, and bounded variables are strictly inside their limits (the
back-ends sample them through a transformation of the open interval to the real line). -/
def Visited (rs : List Reg) (σ : State) : Prop :=
  jointDensity rs σ ≠ 0 ∧ ∀ n d kw, Reg.free n d kw ∈ rs → d.Interior σ (σ n)

/-- The names of the registered variables, in order. -/
def Reg.name : Reg → String
  | .free n _ _ => n
  | .potential n _ => n
  | .deterministic n _ => n

/-- The names of the free variables (the ones the sampler moves), in order. -/
def freeNames (rs : List Reg) : List String :=
  rs.filterMap (fun r => match r with | .free n _ _ => some n | _ => none)

/-- How often a key occurs among keyword arguments. -/
def keyCount (kw : Kwargs) (k : String) : ℕ := (kw.filter (fun p => p.1 = k)).length

/-- The start-value keyword of the other back-end. -/
def Backend.foreignKey : Backend → String
  | .pymc3 => "initval"
  | .pymc => "testval"

/-- The keyword arguments of the distribution object. -/
def Dist.params : Dist → Kwargs
  | .plain _ p => p
  | .truncated _ p _ _ => p
  | .bound _ p _ _ => p

/-- Every registered free variable gets its start value under the keyword its back-end understands, once, and never under the
other one; the distribution objects themselves get no foreign keyword either. -/
def StartKeysClean (b : Backend) (rs : List Reg) : Prop :=
  ∀ n d kw, Reg.free n d kw ∈ rs →
    keyCount kw b.startKey = 1 ∧ keyCount kw b.foreignKey = 0 ∧ keyCount d.params b.foreignKey = 0

/-- A helper treats `initval` and `testval` alike, and `initval` wins, in whichever order they are given. -/
def StartKeysInterchangeable {α : Type} (f : Kwargs → α) : Prop :=
  ∀ (K : Kwargs) (v w : Val), K.mem "initval" = false → K.mem "testval" = false →
    f (("testval", v) :: K) = f (("initval", v) :: K) ∧
    f (("initval", v) :: ("testval", w) :: K) = f (("initval", v) :: K) ∧
    f (("testval", w) :: ("initval", v) :: K) = f (("initval", v) :: K)

/-! ## Eccentricity priors -/

/-- The mixture of Van Eylen et al. (2019): a half-normal of width `sg` with weight `1 - f` and a Rayleigh of width `sr` with weight
`f`. -/
noncomputable def mixtureDensity (f sg sr e : ℝ) : ℝ :=
  if 0 ≤ e then
    (1 - f) * (Real.sqrt (2 / Real.pi) / sg * Real.exp (-e ^ 2 / (2 * sg ^ 2))) + f * (e / sr ^ 2 * Real.exp (-e ^ 2 / (2 * sr ^ 2)))
  else 0

end Exo
