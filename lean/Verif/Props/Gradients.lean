import Verif.Lemmas.GradientsExact
import Verif.Model.Wrappers
import Verif.Props.Activations
import Verif.Props.Common
import Verif.Props.Sphere

/-!
# C57: gradients

`Ex`, `eval`, `grad` (Verif.Model.Autodiff) model `jax.grad`: `eval e r = none` stands for `nan` or an infinite value.
`smoothCutoffEx` etc. (Verif.Model.Gradients) are the functions of e3x written operation by operation. The theorems say

* that their values are those of the models which the other properties are about,
* that gradients of every order are finite for all inputs, also where a formula has a removable singularity,
* that these gradients are the true derivatives.
-/

namespace E3x

open AD AD.Ex Filter Topology Spec
open scoped ContDiff

/-- The derivative of order `n` which `jax.grad` computes for a function of one variable; `none` if it is not finite. -/
noncomputable def Spec.jaxDerivative (n : ℕ) (e : Ex) (t : ℝ) : Option ℝ := eval (grads (List.replicate n 0) e) fun _ => t

/-- The computed value at `t` is `y`, and the computed derivatives of every order are finite. -/
def Spec.FiniteAt (e : Ex) (t y : ℝ) : Prop :=
  Spec.jaxDerivative 0 e t = some y ∧ ∀ n, ∃ d, Spec.jaxDerivative n e t = some d

/-- The same for a family of functions whose values are computed together. -/
def Spec.FamilyFiniteAt (e : ℕ → Ex) (t : ℝ) (result : Except Err (ℕ → ℝ)) : Prop :=
  ∃ b, result = .ok b ∧ ∀ k, Spec.FiniteAt (e k) t (b k)

/-- The derivatives of every order computed at `t` are those of the function `F`. -/
def Spec.ExactAt (e : Ex) (t : ℝ) (F : ℝ → ℝ) : Prop :=
  ∀ n, Spec.jaxDerivative n e t = some (iteratedDeriv n F t)

theorem AD.Ex.Fine.finiteAt {e : Ex} {t y : ℝ} (h : Fine e t y) : Spec.FiniteAt e t y :=
  ⟨h.eval, fun n => finite_grads _ e _ h.1⟩

theorem AD.Ex.Jet.exactAt {e : Ex} {t : ℝ} {F : ℝ → ℝ} (h : Jet e t F) : Spec.ExactAt e t F := fun n => h.eval n

/-! ## Finiteness -/

/-- **C57.** Cutoff functions: at every distance, also at and beyond the cutoff, where the formula of `smooth_cutoff`
divides by zero. -/
theorem C57_cutoff_finite (c t : ℝ) (hc : 0 < c) (ht : 0 ≤ t) :
    (∃ y, smoothCutoff t c = .ok y ∧ Spec.FiniteAt (smoothCutoffEx c) t y) ∧
    (∃ y, cosineCutoff t c = .ok y ∧ Spec.FiniteAt (cosineCutoffEx c) t y) := by
  constructor
  · obtain ⟨y, hy⟩ : ∃ y, smoothCutoff t c = .ok y := ⟨_, by rw [smoothCutoff, if_neg (not_le.mpr hc)]⟩
    exact ⟨y, hy, (fine_smoothCutoff c t hc ht y hy).finiteAt⟩
  · obtain ⟨y, hy⟩ : ∃ y, cosineCutoff t c = .ok y := ⟨_, by rw [cosineCutoff, if_neg (not_le.mpr hc)]⟩
    exact ⟨y, hy, (fine_cosineCutoff c t hc y hy).finiteAt⟩

/-- **C57.** `smooth_switch`, `smooth_damping` and the window functions, for every real input. -/
theorem C57_switch_damping_window_finite (eps x0 x1 gamma limit t : ℝ) (he : 0 < eps) (h : x0 < x1) (hl : 0 < limit)
    (num k : ℕ) (hk : k < num) :
    (∃ y, smoothSwitch eps t x0 x1 = .ok y ∧ Spec.FiniteAt (smoothSwitchEx eps x0 x1) t y) ∧
    Spec.FiniteAt (smoothDampingEx gamma) t (smoothDamping t gamma) ∧
    Spec.FiniteAt (rectangularWindowEx num limit k) t (rectangularWindow t num limit k) ∧
    Spec.FiniteAt (triangularWindowEx num limit k) t (triangularWindow t num limit k) ∧
    Spec.FiniteAt (smoothWindowEx eps num limit k) t (smoothWindow eps t num limit k) := by
  obtain ⟨y, hy⟩ : ∃ y, smoothSwitch eps t x0 x1 = .ok y := ⟨_, by rw [smoothSwitch, if_neg (not_le.mpr h)]⟩
  exact ⟨⟨y, hy, (fine_smoothSwitch eps x0 x1 t he y hy).finiteAt⟩, (fine_smoothDamping gamma t).finiteAt,
    (fine_rectangular num limit t k).finiteAt, (fine_triangular num limit t k (by omega) hl).finiteAt,
    (fine_smoothWindow eps num limit t k he).finiteAt⟩

/-- **C57.** The mappings of distances, at every distance including zero. -/
theorem C57_mapping_finite (eps gamma t : ℝ) (he : 0 < eps) (ht : 0 ≤ t) (kind : String)
    (hk : kind ∈ ["shifted", "damped", "cuspless"]) (cuspless : Bool) :
    (∃ m, reciprocalMapping eps t kind = .ok m ∧ Spec.FiniteAt (reciprocalMappingEx eps kind) t m) ∧
    Spec.FiniteAt (exponentialMappingEx gamma cuspless) t (exponentialMapping t gamma cuspless) := by
  refine ⟨?_, (fine_exponential gamma t cuspless).finiteAt⟩
  obtain ⟨m, hm⟩ : ∃ m, reciprocalMapping eps t kind = .ok m := by
    simp only [List.mem_cons, List.not_mem_nil, or_false] at hk
    rcases hk with rfl | rfl | rfl <;> exact ⟨_, by simp [reciprocalMapping] <;> rfl⟩
  exact ⟨m, hm, (fine_reciprocal eps t he ht kind m hm).finiteAt⟩

/-- A helper function with parameter `num` of which all derivatives are finite at every point. -/
def Spec.HelperFinite (e : ℕ → Ex) (f : ℝ → ℤ → Except Err (ℕ → ℝ)) (num : ℕ) : Prop :=
  ∀ t, ∃ b, f t num = .ok b ∧ ∀ k, Fine (e k) t (b k)

theorem helper_bernstein (eps : ℝ) (he : 0 < eps) (num : ℕ) (hn : 1 ≤ num) :
    Spec.HelperFinite (bernsteinEx eps (num - 1)) (bernstein eps) num := by
  intro t
  obtain ⟨n, rfl⟩ : ∃ n, num = n + 1 := ⟨num - 1, by omega⟩
  refine ⟨_, by push_cast; exact bernstein_eq eps t n, fun k => ?_⟩
  exact fine_bernstein eps t he n k

theorem helper_gaussian (num : ℕ) (hn : 1 ≤ num) : Spec.HelperFinite (gaussianEx num) gaussian num := by
  intro t
  obtain ⟨b, hb⟩ : ∃ b, gaussian t num = .ok b := ⟨_, by rw [gaussian, if_neg (by omega)]⟩
  exact ⟨b, hb, fun k => fine_gaussian t num k b hb⟩

theorem helper_fourier (num : ℕ) (hn : 1 ≤ num) : Spec.HelperFinite fourierEx fourier num := by
  intro t
  exact ⟨_, by rw [fourier, if_neg (by omega)], fun k => fine_fourier t k⟩

theorem helper_chebyshev (eps : ℝ) (he : 0 < eps) (num : ℕ) (hn : 1 ≤ num) :
    Spec.HelperFinite (chebyshevEx eps num) (chebyshev eps) num := by
  intro t
  obtain ⟨b, hb⟩ : ∃ b, chebyshev eps t num = .ok b := by
    unfold chebyshev
    rw [if_neg (by omega)]
    split_ifs
    · exact ⟨_, rfl⟩
    · exact ⟨_, rfl⟩
  exact ⟨b, hb, fun k => fine_chebyshev eps t he k num (by omega) b hb⟩

theorem family_basic {e : ℕ → Ex} {f : ℝ → ℤ → Except Err (ℕ → ℝ)} {num : ℕ} (hf : Spec.HelperFinite e f num)
    {limit : ℝ} (hl : limit ≠ 0) (t : ℝ) :
    Spec.FamilyFiniteAt (fun k => basicEx (e k) limit) t (basicBasis f t num limit) := by
  obtain ⟨b, hb, hf⟩ := hf (t / limit)
  exact ⟨b, hb, fun k => (fine_basic hl (hf k)).finiteAt⟩

theorem family_reciprocal {e : ℕ → Ex} {f : ℝ → ℤ → Except Err (ℕ → ℝ)} {num : ℕ} (hf : Spec.HelperFinite e f num)
    {eps t : ℝ} (he : 0 < eps) (ht : 0 ≤ t) {kind : String} (hk : kind ∈ ["shifted", "damped", "cuspless"]) (w : Bool) :
    Spec.FamilyFiniteAt (fun k => mappedEx (e k) (reciprocalMappingEx eps kind) w) t
      (reciprocalBasis f eps t num kind w) := by
  obtain ⟨m, hm, -⟩ := (C57_mapping_finite eps 1 t he ht kind hk true).1
  obtain ⟨b, hb, hf⟩ := hf (1 - m)
  refine ⟨_, by simp only [reciprocalBasis, hm, hb, Except.bind]; rfl, fun k => ?_⟩
  exact (fine_mapped w (fine_reciprocal eps t he ht kind m hm) (hf k)).finiteAt

theorem family_exponential {e : ℕ → Ex} {f : ℝ → ℤ → Except Err (ℕ → ℝ)} {num : ℕ} (hf : Spec.HelperFinite e f num)
    (gamma t : ℝ) (cuspless w : Bool) :
    Spec.FamilyFiniteAt (fun k => mappedEx (e k) (exponentialMappingEx gamma cuspless) w) t
      (exponentialBasis f t num gamma cuspless w) := by
  obtain ⟨b, hb, hf⟩ := hf (1 - exponentialMapping t gamma cuspless)
  refine ⟨_, by simp only [exponentialBasis, hb, Except.bind]; rfl, fun k => ?_⟩
  exact (fine_mapped w (fine_exponential gamma t cuspless) (hf k)).finiteAt

/-- **C57.** The radial basis functions which are defined on `[0, limit]`: at every distance, inside and outside. -/
theorem C57_basic_radial_finite (eps limit t : ℝ) (he : 0 < eps) (hl : 0 < limit) (num : ℕ) (hn : 1 ≤ num) :
    (∀ k, Spec.FiniteAt (sincEx limit k) t (sincBasis t limit k)) ∧
    Spec.FamilyFiniteAt (fun k => basicEx (bernsteinEx eps (num - 1) k) limit) t (basicBasis (bernstein eps) t num limit) ∧
    Spec.FamilyFiniteAt (fun k => basicEx (gaussianEx num k) limit) t (basicBasis gaussian t num limit) ∧
    Spec.FamilyFiniteAt (fun k => basicEx (fourierEx k) limit) t (basicBasis fourier t num limit) ∧
    Spec.FamilyFiniteAt (basicChebyshevEx eps limit num) t (basicChebyshev eps t num limit) := by
  refine ⟨fun k => (fine_sinc limit t k hl.ne').finiteAt, family_basic (helper_bernstein eps he num hn) hl.ne' t,
    family_basic (helper_gaussian num hn) hl.ne' t, family_basic (helper_fourier num hn) hl.ne' t, ?_⟩
  obtain ⟨c, hc, -⟩ := helper_chebyshev eps he num hn (2 * t / limit - 1)
  have hb : basicChebyshev eps t num limit = .ok fun k => if |2 * t / limit - 1| ≤ 1 then c k else signFn (2 * t / limit - 1) ^ k := by
    simp only [basicChebyshev, hc, Except.bind]
  exact ⟨_, hb, fun k => (fine_basicChebyshev eps t limit he hl.ne' k num (by omega) _ hb).finiteAt⟩

/-- **C57.** The radial basis functions which are defined at all distances, with each mapping, with and without weights,
at every distance including zero. -/
theorem C57_mapped_radial_finite (eps epsneg gamma t : ℝ) (he : 0 < eps) (he' : 0 < epsneg) (ht : 0 ≤ t) (num : ℕ)
    (hn : 1 ≤ num) (kind : String) (hk : kind ∈ ["shifted", "damped", "cuspless"]) (cuspless w : Bool) :
    let r := reciprocalMappingEx eps kind
    let m := exponentialMappingEx gamma cuspless
    Spec.FamilyFiniteAt (fun k => mappedEx (bernsteinEx epsneg (num - 1) k) r w) t
      (reciprocalBasis (bernstein epsneg) eps t num kind w) ∧
    Spec.FamilyFiniteAt (fun k => mappedEx (gaussianEx num k) r w) t (reciprocalBasis gaussian eps t num kind w) ∧
    Spec.FamilyFiniteAt (fun k => mappedEx (fourierEx k) r w) t (reciprocalBasis fourier eps t num kind w) ∧
    Spec.FamilyFiniteAt (fun k => mappedChebyshevEx (chebyshevEx epsneg num k) r w) t
      (reciprocalChebyshev eps epsneg t num kind w) ∧
    Spec.FamilyFiniteAt (fun k => mappedEx (bernsteinEx epsneg (num - 1) k) m w) t
      (exponentialBasis (bernstein epsneg) t num gamma cuspless w) ∧
    Spec.FamilyFiniteAt (fun k => mappedEx (gaussianEx num k) m w) t (exponentialBasis gaussian t num gamma cuspless w) ∧
    Spec.FamilyFiniteAt (fun k => mappedEx (fourierEx k) m w) t (exponentialBasis fourier t num gamma cuspless w) ∧
    Spec.FamilyFiniteAt (fun k => mappedChebyshevEx (chebyshevEx epsneg num k) m w) t
      (exponentialChebyshev epsneg t num gamma cuspless w) := by
  refine ⟨family_reciprocal (helper_bernstein epsneg he' num hn) he ht hk w,
    family_reciprocal (helper_gaussian num hn) he ht hk w, family_reciprocal (helper_fourier num hn) he ht hk w, ?_,
    family_exponential (helper_bernstein epsneg he' num hn) gamma t cuspless w,
    family_exponential (helper_gaussian num hn) gamma t cuspless w,
    family_exponential (helper_fourier num hn) gamma t cuspless w, ?_⟩
  · obtain ⟨m, hm, -⟩ := (C57_mapping_finite eps 1 t he ht kind hk true).1
    obtain ⟨b, hb, hf⟩ := helper_chebyshev epsneg he' num hn (2 * m - 1)
    refine ⟨_, by simp only [reciprocalChebyshev, hm, hb, Except.bind]; rfl, fun k => ?_⟩
    exact (fine_mappedChebyshev w (fine_reciprocal eps t he ht kind m hm) (hf k)).finiteAt
  · obtain ⟨b, hb, hf⟩ := helper_chebyshev epsneg he' num hn (2 * exponentialMapping t gamma cuspless - 1)
    refine ⟨_, by simp only [exponentialChebyshev, hb, Except.bind]; rfl, fun k => ?_⟩
    exact (fine_mappedChebyshev w (fine_exponential gamma t cuspless) (hf k)).finiteAt

/-- The computed values of `gate(s) * v`, where `s` (input 0) is the scalar channel and `v` (input `j`; `j = 0` for the
scalar channel itself) is a feature, and the computed derivatives of every order are finite. -/
def Spec.ActivationFinite (gate : Ex) (g : ℝ → ℝ) : Prop :=
  ∀ (j : ℕ) (r : ℕ → ℝ), eval (gatedEx gate j) r = some (g (r 0) * r j) ∧
    ∀ is, ∃ d, eval (grads is (gatedEx gate j)) r = some d

theorem activation_of_fine {gate : Ex} {g : ℝ → ℝ} (h : ∀ t, Fine gate t (g t)) : Spec.ActivationFinite gate g := by
  intro j r
  have hr : Regular (gatedEx gate j) r := ⟨reg_at' trivial (h (r 0)).1, trivial⟩
  refine ⟨?_, fun is => finite_grads is _ r hr⟩
  rw [eval_of_regular _ _ hr, gatedEx, val_mul, val_at', val_var, (h (r 0)).2, val_var]

/-- **C57.** All activation functions: for every scalar and every feature, also at the kinks and the removable
singularities of the gates. (`selu` is a multiple of `elu`.) -/
theorem C57_activation_finite (eps alpha slope : ℝ) (he : 0 ≤ eps) (ha : alpha ≠ 0) (b : Bool) :
    Spec.ActivationFinite reluEx reluGate ∧ Spec.ActivationFinite (leakyReluEx slope) (leakyReluGate slope) ∧
    Spec.ActivationFinite (eluEx eps alpha) (eluGate eps alpha) ∧
    Spec.ActivationFinite (celuEx eps alpha) (celuGate eps alpha) ∧
    Spec.ActivationFinite siluEx siluGate ∧ Spec.ActivationFinite (geluEx b) (geluGate b) ∧
    Spec.ActivationFinite (mishEx b) (mishGate b) ∧ Spec.ActivationFinite serfEx serfGate ∧
    Spec.ActivationFinite (shiftedSoftplusEx eps) (shiftedSoftplusGate eps) ∧
    Spec.ActivationFinite hardTanhEx hardTanhGate ∧ Spec.ActivationFinite softSignEx softSignGate ∧
    Spec.ActivationFinite relu6Ex relu6Gate ∧ Spec.ActivationFinite hardSiluEx hardSigmoid ∧
    Spec.ActivationFinite (bentIdentityEx eps) (bentIdentityGate eps) :=
  ⟨activation_of_fine fine_relu, activation_of_fine (fine_leakyRelu slope),
    activation_of_fine fun t => fine_elu eps alpha t he, activation_of_fine fun t => fine_celu eps alpha t he ha,
    activation_of_fine fine_silu, activation_of_fine (fine_gelu b), activation_of_fine (fine_mish b),
    activation_of_fine fine_serf, activation_of_fine fun t => fine_shiftedSoftplus eps t he,
    activation_of_fine fine_hardTanh, activation_of_fine fine_softSign, activation_of_fine fine_relu6,
    activation_of_fine fine_hardSilu, activation_of_fine fun t => fine_bentIdentity eps t he⟩

/-! ## Exactness -/

/-- **C57.** `smooth_cutoff`: at every distance, also at the cutoff, the computed derivatives of every order are those of
one infinitely differentiable function whose values are the computed values. -/
theorem C57_smooth_cutoff_exact (c : ℝ) (hc : 0 < c) :
    ∃ F : ℝ → ℝ, ContDiff ℝ ∞ F ∧ ∀ t, 0 ≤ t → smoothCutoff t c = .ok (F t) ∧ Spec.ExactAt (smoothCutoffEx c) t F := by
  have hF : ContDiff ℝ ∞ fun x : ℝ => Real.exp 1 * expNegInvGlue (1 - (x / c) ^ 2) := by
    refine contDiff_const.mul ((expNegInvGlue.contDiff (n := ⊤)).comp ?_)
    exact contDiff_const.sub ((contDiff_id.div_const c).pow 2)
  have hz : ∀ x, c ≤ x → (fun x : ℝ => Real.exp 1 * expNegInvGlue (1 - (x / c) ^ 2)) x = 0 := by
    intro x hx
    dsimp only
    rw [expNegInvGlue.zero_of_nonpos, mul_zero]
    have : 1 ≤ x / c := by rwa [le_div_iff₀ hc, one_mul]
    nlinarith
  refine ⟨_, hF, fun t ht => ⟨smoothCutoff_eq hc (by linarith), fun n => ?_⟩⟩
  rcases lt_or_ge t c with h1 | h1
  · have h := (jet_smoothCutoff_lt c t hc ht h1).exactAt n
    rw [h]
    refine congrArg some (EventuallyEq.iteratedDeriv_eq n ?_)
    filter_upwards [Ioo_mem_nhds (show -c < t by linarith) h1] with s hs
    have h2 := smoothCutoff_eq hc hs.1
    have h3 : cutoffRescale s c = s / c := by
      unfold cutoffRescale
      split_ifs with hc1
      · rfl
      · rw [not_ne_iff.mp hc1, div_one]
    have h4 : s / c < 1 := by rw [div_lt_one hc]; exact hs.2
    simp only [smoothCutoff, if_neg (not_le.mpr hc), h3, if_pos h4] at h2
    exact Except.ok.inj h2
  · have h := (jet_smoothCutoff_ge c t hc h1).exactAt n
    rw [h, iteratedDeriv_const]
    split_ifs with hn
    · rw [hn, iteratedDeriv_zero]
      exact congrArg some (hz t h1).symm
    · rw [iteratedDeriv_zero_of_flat_above _ hF t 0 (fun x hx => hz x (h1.trans hx)) n hn]

/-- **C57.** `cosine_cutoff`: the computed first derivative is the derivative of the computed function at every
distance, also at the cutoff; away from the cutoff this is so for the derivatives of every order. -/
theorem C57_cosine_cutoff_exact (c : ℝ) (hc : 0 < c) (f : ℝ → ℝ) (hf : ∀ x, cosineCutoff x c = .ok (f x)) (t : ℝ) :
    Spec.jaxDerivative 1 (cosineCutoffEx c) t = some (deriv f t) ∧ DifferentiableAt ℝ f t ∧
    (t ≠ c → Spec.ExactAt (cosineCutoffEx c) t f) := by
  have hd := (C43_cosine_cutoff_derivative c hc f hf).1 t
  have h3 : ∀ s, cutoffRescale s c = s / c := by
    intro s
    unfold cutoffRescale
    split_ifs with hc1
    · rfl
    · rw [not_ne_iff.mp hc1, div_one]
  have hlt : t < c → f =ᶠ[𝓝 t] fun s => 0.5 * Real.cos (Real.pi * (s / c)) + 0.5 := by
    intro h
    filter_upwards [Iio_mem_nhds h] with s hs
    have h2 := hf s
    simp only [cosineCutoff, if_neg (not_le.mpr hc), h3] at h2
    rw [if_pos ((div_lt_one hc).mpr hs)] at h2
    exact (Except.ok.inj h2).symm
  have hgt : c < t → f =ᶠ[𝓝 t] fun _ => 0 := by
    intro h
    filter_upwards [Ioi_mem_nhds h] with s hs
    have h2 := hf s
    simp only [cosineCutoff, if_neg (not_le.mpr hc), h3] at h2
    rw [if_neg (not_lt.mpr ((one_le_div hc).mpr (le_of_lt hs)))] at h2
    exact (Except.ok.inj h2).symm
  have hex : t ≠ c → Spec.ExactAt (cosineCutoffEx c) t f := by
    intro hne n
    rcases lt_or_gt_of_ne hne with h | h
    · rw [(jet_cosineCutoff_lt c t hc h).exactAt n, (hlt h).iteratedDeriv_eq n]
    · rw [(jet_cosineCutoff_ge c t hc h.le).exactAt n, (hgt h).iteratedDeriv_eq n]
  refine ⟨?_, hd.differentiableAt, hex⟩
  by_cases hne : t = c
  · rw [(jet_cosineCutoff_ge c t hc hne.ge).exactAt 1, hd.deriv, if_neg (not_lt.mpr hne.ge), iteratedDeriv_const,
      if_neg one_ne_zero]
  · rw [hex hne 1, iteratedDeriv_one]

/-- **C57.** `smooth_damping`, likewise exact to every order at every distance including zero. -/
theorem C57_smooth_damping_exact (gamma : ℝ) (hg : 0 < gamma) :
    ∃ F : ℝ → ℝ, ContDiff ℝ ∞ F ∧
      ∀ t, 0 ≤ t → smoothDamping t gamma = F t ∧ Spec.ExactAt (smoothDampingEx gamma) t F := by
  obtain ⟨F, hF, hv, hz⟩ := C51_smooth_damping_derivatives gamma hg
  refine ⟨F, hF, fun t ht => ⟨hv t ht, fun n => ?_⟩⟩
  rcases ht.eq_or_lt with rfl | ht
  · rw [(jet_damping_zero gamma).exactAt n, hz n, iteratedDeriv_const]
    split_ifs <;> rfl
  · rw [(jet_damping_pos gamma t hg ht).exactAt n]
    refine congrArg some (EventuallyEq.iteratedDeriv_eq n ?_)
    filter_upwards [Ioi_mem_nhds ht] with s hs
    have hs : 0 < s := hs
    rw [← hv s hs.le]
    have hlt : Real.exp (-gamma * s) < 1 := by rw [Real.exp_lt_one_iff]; nlinarith
    have hm : 0 < (1 - Real.exp (-gamma * s)) * (1 - Real.exp (-gamma * s)) := by
      have : 0 < 1 - Real.exp (-gamma * s) := by linarith
      positivity
    simp only [smoothDamping, if_pos hm]

/-- **C57.** `smooth_switch`: the computed derivatives are those of one infinitely differentiable switching function,
except that within a fraction `eps` of the interval from its ends they are those of the constants 0 and 1. -/
theorem C57_smooth_switch_exact (eps x0 x1 : ℝ) (h0 : 0 < eps) (h1 : eps < 1 / 2) (h : x0 < x1) :
    ∃ S : ℝ → ℝ, ContDiff ℝ ∞ S ∧ (∀ x ≤ x0, S x = 0) ∧ (∀ x, x1 ≤ x → S x = 1) ∧
      (∀ x, x0 < x → x < x1 → S x = (1 + Real.exp (√3 / 2 * ((x1 - x0) / (x - x0) - (x1 - x0) / (x1 - x))))⁻¹) ∧
      (∀ t, t ≤ x0 ∨ x1 ≤ t ∨ x0 + eps * (x1 - x0) ≤ t ∧ t ≤ x1 - eps * (x1 - x0) →
        Spec.ExactAt (smoothSwitchEx eps x0 x1) t S) ∧
      (∀ t, t < x0 + eps * (x1 - x0) → Spec.ExactAt (smoothSwitchEx eps x0 x1) t fun _ => 0) ∧
      (∀ t, x1 - eps * (x1 - x0) < t → Spec.ExactAt (smoothSwitchEx eps x0 x1) t fun _ => 1) := by
  obtain ⟨S, hS, hlow, hhigh, hmid, hflat, -⟩ := C44_smooth_switch_limit eps x0 x1 h0 h1 h
  have hd : 0 < x1 - x0 := by linarith
  have hzero : ∀ t, t < x0 + eps * (x1 - x0) → Spec.ExactAt (smoothSwitchEx eps x0 x1) t fun _ => 0 := by
    intro t ht
    have hlt : (t - x0) / (x1 - x0) < eps := by rw [div_lt_iff₀ hd]; linarith
    have hj := jet_switch_out h0 h (Or.inl hlt)
    rw [switchValue, if_pos hlt] at hj
    exact hj.exactAt
  have hone : ∀ t, x1 - eps * (x1 - x0) < t → Spec.ExactAt (smoothSwitchEx eps x0 x1) t fun _ => 1 := by
    intro t ht
    have hlt : 1 - eps < (t - x0) / (x1 - x0) := by rw [lt_div_iff₀ hd]; nlinarith
    have hj := jet_switch_out h0 h (Or.inr hlt)
    rw [switchValue, if_neg (by linarith), if_pos hlt] at hj
    exact hj.exactAt
  refine ⟨S, hS, hlow, hhigh, hmid, ?_, hzero, hone⟩
  rintro t (ht | ht | ⟨ht, ht'⟩) n
  · rw [hzero t (by nlinarith) n, iteratedDeriv_const]
    split_ifs with hn
    · rw [hn, iteratedDeriv_zero, hlow t ht]
    · rw [iteratedDeriv_zero_of_flat S hS t 0 (fun x hx => hlow x (hx.trans ht)) n hn]
  · rw [hone t (by nlinarith) n, iteratedDeriv_const]
    split_ifs with hn
    · rw [hn, iteratedDeriv_zero, hhigh t ht]
    · rw [iteratedDeriv_zero_of_flat_above S hS t 1 (fun x hx => hhigh x (ht.trans hx)) n hn]
  · have hge : eps ≤ (t - x0) / (x1 - x0) := by rw [le_div_iff₀ hd]; linarith
    have hle : (t - x0) / (x1 - x0) ≤ 1 - eps := by rw [div_le_iff₀ hd]; nlinarith
    rw [(jet_switch_mid h0 h hge hle).exactAt n]
    refine congrArg some (EventuallyEq.iteratedDeriv_eq n ?_)
    have hpos := mul_pos h0 hd
    filter_upwards [Ioo_mem_nhds (show x0 < t by linarith) (show t < x1 by linarith)] with s hs
    have p : 0 < s - x0 := by linarith [hs.1]
    have q : 0 < x1 - s := by linarith [hs.2]
    rw [hmid s hs.1 hs.2, switchFn, switchExp, one_div]
    have e1 : 1 - (s - x0) / (x1 - x0) = (x1 - s) / (x1 - x0) := by field_simp; ring
    rw [e1, one_div_div, one_div_div]
    rfl

/-- **C57.** The mappings: exact to every order, except that `'damped'` uses the derivatives of a quadratic polynomial
below `eps`. -/
theorem C57_mapping_exact (eps gamma t : ℝ) (he : 0 < eps) (cuspless : Bool) :
    (0 ≤ t → Spec.ExactAt (reciprocalMappingEx eps "shifted") t fun s => 1 / (s + 1)) ∧
    Spec.ExactAt (reciprocalMappingEx eps "cuspless") t (fun s => 1 / (s + Real.exp (-s))) ∧
    (eps ≤ t → Spec.ExactAt (reciprocalMappingEx eps "damped") t fun s => (1 - Real.exp (-s)) / s) ∧
    (t < eps → Spec.ExactAt (reciprocalMappingEx eps "damped") t fun s => 1 - s / 2 + s ^ 2 / 6) ∧
    Spec.ExactAt (exponentialMappingEx gamma cuspless) t
      (fun s => Real.exp (-gamma * (if cuspless then s + Real.exp (-s) - 1 else s))) := by
  refine ⟨fun h => (jet_shifted t h).exactAt, (jet_cuspless t).exactAt, fun h => ?_, fun h => ?_,
    (jet_exponential gamma t cuspless).exactAt⟩
  · exact ((jet_damped eps t he h).congr (Eventually.of_forall fun s => by ring)).exactAt
  · exact ((jet_damped_small eps t h).congr (Eventually.of_forall fun s => by ring)).exactAt

/-- **C57.** The helper functions of the radial basis functions. `_gaussian`, `_fourier` and `sinc` are exact to every
order. For `_bernstein`, whose hand-written derivative calls it with `num - 1`, the derivatives are exact except within
`eps` of 0 and 1 and outside `[0, 1]`, where they are those at 0 and at 1. For `_chebyshev`, they are those of the
Chebyshev polynomials, and of quadratic Taylor polynomials within `eps` of ±1 and outside `[-1, 1]`. -/
theorem C57_radial_exact (eps limit t : ℝ) (he : 0 < eps) (he' : eps < 1 / 2) (hl : 0 < limit) (num k : ℕ) (hk : k < num) :
    Spec.ExactAt (gaussianEx num k) t (fun s =>
      Real.exp (-(√(2 * num) * (num - 1)) * (s - if num = 1 then 0 else (k : ℝ) / (num - 1)) ^ 2)) ∧
    Spec.ExactAt (fourierEx k) t (fun s => Real.cos (Real.pi * k * s)) ∧
    (t ≤ limit → Spec.ExactAt (sincEx limit k) t fun s => Real.sinc (Real.pi * ((k + 1) * (s / limit)))) ∧
    (limit < t → Spec.ExactAt (sincEx limit k) t fun _ => 0) ∧
    (t = 0 ∨ t = 1 ∨ eps ≤ t ∧ t ≤ 1 - eps →
      Spec.ExactAt (bernsteinEx eps (num - 1) k) t (Spec.bernstein (num - 1) k)) ∧
    (t < eps → ∀ n, Spec.jaxDerivative n (bernsteinEx eps (num - 1) k) t =
      some (iteratedDeriv n (Spec.bernstein (num - 1) k) 0)) ∧
    (1 - eps < t → ∀ n, Spec.jaxDerivative n (bernsteinEx eps (num - 1) k) t =
      some (iteratedDeriv n (Spec.bernstein (num - 1) k) 1)) ∧
    (-(1 - eps) ≤ t → t ≤ 1 - eps →
      Spec.ExactAt (chebyshevEx eps num k) t fun s => (Polynomial.Chebyshev.T ℝ k).eval s) ∧
    (1 - eps < t → Spec.ExactAt (chebyshevEx eps num k) t (Spec.chebyshevTaylor k)) ∧
    (t < -(1 - eps) → Spec.ExactAt (chebyshevEx eps num k) t fun s => (-1) ^ k * Spec.chebyshevTaylor k (-s)) := by
  have hB : ∀ n, Spec.jaxDerivative n (bernsteinEx eps (num - 1) k) t =
      some (iteratedDeriv n (Spec.bernstein (num - 1) k) (clampEps eps t)) := by
    intro n
    rw [(jet_bernstein eps t he he' (num - 1) k (by omega)).exactAt n]
    have e : (fun s : ℝ => Spec.bernstein (num - 1) k (s - t + clampEps eps t)) =
        fun s => Spec.bernstein (num - 1) k (s + (clampEps eps t - t)) := by funext s; congr 1; ring
    rw [e, iteratedDeriv_comp_add_const]
    simp
  refine ⟨?_, (jet_fourier t k).exactAt, fun h => ?_, fun h => (jet_sinc_gt limit t hl h k).exactAt, ?_, ?_, ?_, ?_, ?_, ?_⟩
  · exact ((jet_gaussian t num k).congr (Eventually.of_forall fun s => by simp)).exactAt
  · refine ((jet_sinc_le limit t hl h k).congr (Eventually.of_forall fun s => ?_)).exactAt
    beta_reduce
    rw [jnpSinc_eq]
    push_cast
    rfl
  · intro h n
    rw [hB n]
    congr 2
    unfold clampEps
    rcases h with rfl | rfl | ⟨h2, h3⟩
    · rw [if_pos he]
    · rw [if_neg (by linarith), if_pos (by linarith)]
    · rw [if_neg (not_lt.mpr h2), if_neg (not_lt.mpr h3)]
  · intro h n
    rw [hB n, clampEps, if_pos h]
  · intro h n
    rw [hB n, clampEps, if_neg (by linarith), if_pos h]
  · exact fun h2 h3 => (jet_chebyshev eps t he h2 h3 num k hk).exactAt
  · exact fun h => (jet_chebyshev_large eps t (by linarith) h num k hk).exactAt
  · exact fun h => (jet_chebyshev_small eps t h num k hk).exactAt

/-- **C57.** The smooth activation functions: for the scalar channel `s` and a feature `v`, the derivatives of
`gate(s) * v` of every order with respect to both are exact. -/
theorem C57_activation_exact (b : Bool) (r : ℕ → ℝ) (j : ℕ) (is : List ℕ) :
    eval (grads is (gatedEx siluEx j)) r = some (pds is (fun r => siluGate (r 0) * r j) r) ∧
    eval (grads is (gatedEx (geluEx b) j)) r = some (pds is (fun r => geluGate b (r 0) * r j) r) ∧
    eval (grads is (gatedEx (mishEx b) j)) r = some (pds is (fun r => mishGate b (r 0) * r j) r) ∧
    eval (grads is (gatedEx serfEx j)) r = some (pds is (fun r => serfGate (r 0) * r j) r) := by
  have key : ∀ (gate : Ex) (g : ℝ → ℝ), (∀ t, Jet gate t g) →
      eval (grads is (gatedEx gate j)) r = some (pds is (fun r => g (r 0) * r j) r) := by
    intro gate g hg
    have hreg : Regular (gatedEx gate j) r := ⟨reg_at' trivial (hg (r 0)).reg, trivial⟩
    have hlaw : Lawful (gatedEx gate j) r := ⟨law_at' trivial (hg (r 0)).law, trivial⟩
    rw [eval_grads is _ r hreg hlaw]
    refine congrArg some (pds_congr is ?_).self_of_nhds
    have hc : Tendsto (fun q : ℕ → ℝ => q 0) (𝓝 r) (𝓝 (r 0)) := (continuous_apply 0).continuousAt
    filter_upwards [hc.eventually (hg (r 0)).loc_const'] with q hq
    rw [gatedEx, loc_mul, loc_at', loc_var, loc_var, val_var, hq]
  exact ⟨key _ _ jet_silu, key _ _ (jet_gelu b), key _ _ (jet_mish b), key _ _ jet_serf⟩

/-! ## Functions of a displacement vector -/

/-- The computed value at the vector `v` is `y` and all computed partial derivatives, of every order, are finite. -/
def Spec.FiniteAtVector (e : Ex) (v : Fin 3 → ℝ) (y : ℝ) : Prop :=
  eval e (vec v) = some y ∧ ∀ is, ∃ d, eval (grads is e) (vec v) = some d

/-- All computed partial derivatives at `v` (`is` lists the variables, e.g. `[0, 2]` for ∂²/∂x∂z) are those of `F`. -/
def Spec.ExactAtVector (e : Ex) (v : Fin 3 → ℝ) (F : (ℕ → ℝ) → ℝ) : Prop :=
  ∀ is, eval (grads is e) (vec v) = some (pds is F (vec v))

theorem finiteAtVector {e : Ex} {v : Fin 3 → ℝ} {y : ℝ} (h : Regular e (vec v)) (hy : val e (vec v) = y) :
    Spec.FiniteAtVector e v y :=
  ⟨by rw [eval_of_regular _ _ h, hy], fun is => finite_grads is e _ h⟩

/-- **C57.** `norm` and `normalize` of batches of vectors: at every vector, zero included, gradients of every order are
finite. -/
theorem C57_norm_finite {ι : Type} [Fintype ι] [Nonempty ι] (tiny : ℝ) (ht : 0 < tiny) (x : ι → Fin 3 → ℝ) :
    (∃ n, norm tiny x = .ok n ∧ ∀ i, Spec.FiniteAtVector normEx (x i) (n i)) ∧
    (∃ y, normalize tiny x = .ok y ∧ ∀ i k, Spec.FiniteAtVector (normalizeEx tiny (k : Fin 3)) (x i) (y i k)) := by
  have hn := (C41_norm tiny ht x).2.1 inferInstance
  constructor
  · exact ⟨_, hn, fun i => finiteAtVector (reg_normEx _) (val_normEx _)⟩
  · refine ⟨fun i k => x i k / (if Spec.length (x i) * Spec.length (x i) > tiny then Spec.length (x i) else 1), ?_, ?_⟩
    · unfold normalize normalizeAndReturnNorm
      rw [hn]
      rfl
    · intro i k
      exact finiteAtVector (reg_normalizeEx tiny ht.le k _) (val_normalizeEx tiny (x i) k)

/-- The length of the vector formed by the first three inputs. -/
noncomputable def Spec.radius (r : ℕ → ℝ) : ℝ := √(r 0 ^ 2 + r 1 ^ 2 + r 2 ^ 2)

/-- **C57.** Away from the zero vector the derivatives of `norm` and `normalize` are exact, to every order. -/
theorem C57_norm_exact (tiny : ℝ) (ht : 0 ≤ tiny) (v : Fin 3 → ℝ) :
    (v ≠ 0 → Spec.ExactAtVector normEx v Spec.radius) ∧
    (tiny < Spec.length v ^ 2 → ∀ k : Fin 3, Spec.ExactAtVector (normalizeEx tiny k) v fun r => r k / Spec.radius r) := by
  have hpos : ∀ w : Fin 3 → ℝ, w ≠ 0 → 0 < val normEx (vec w) := by
    intro w hw
    rw [val_normEx]
    refine Real.sqrt_pos.mpr ?_
    obtain ⟨k, hk⟩ := Function.ne_iff.mp hw
    exact lt_of_lt_of_le (sq_pos_of_ne_zero hk : 0 < w k ^ 2) (Finset.single_le_sum (f := fun k => w k ^ 2) (fun _ _ => sq_nonneg _) (Finset.mem_univ k))
  refine ⟨fun hv is => ?_, fun hv k is => ?_⟩
  · exact eval_grads is _ _ (reg_normEx _) (law_normEx (hpos v hv))
  · have hl : 0 < val normEx (vec v) := by
      rw [val_normEx]
      refine lt_of_le_of_ne (Real.sqrt_nonneg _) fun h => ?_
      rw [← h] at hv
      norm_num at hv
      linarith
    rw [eval_grads is _ _ (reg_normalizeEx tiny ht k _) (law_normalizeEx hl k)]
    refine congrArg some (congrFun (congrArg (pds is) (funext fun r => ?_)) _)
    rw [loc_normalizeEx (by rw [val_normEx, ← pow_two]; exact hv)]
    rfl

theorem gatherPower_clamp (x : ℝ) (L p : ℕ) : gatherPower x L p = x ^ min p L := by
  unfold gatherPower
  rw [List.getD_eq_getElem?_getD, C21_integer_powers x L _ (min_le_right p L)]
  rfl

theorem cartesianMonomial_vec (L : ℕ) (u : Fin 3 → ℝ) (p : List ℕ) : cartesianMonomial L u p =
    vec u 0 ^ (p.map (min · L)).getD 0 0 * vec u 1 ^ (p.map (min · L)).getD 1 0 * vec u 2 ^ (p.map (min · L)).getD 2 0 := by
  have h : ∀ k, (p.map (min · L)).getD k 0 = min (p.getD k 0) L := by
    intro k
    simp only [List.getD_eq_getElem?_getD, List.getElem?_map]
    cases p[k]? <;> simp
  simp only [h, cartesianMonomial, gatherPower_clamp]
  rfl

/-- `spherical_harmonics(r, r_is_normalized=True)` is, for every batch `r`, a fixed family of polynomials, evaluated
monomial by monomial as in `polynomialEx`. -/
theorem harmonics_polynomial (L : ℕ) (cart : Bool) (s : String) (hs : s ∈ normNames) :
    ∃ (ls : ℕ → List ℕ) (c : ℕ → ℕ → ℝ) (m : ℕ), ∀ (tiny : ℝ) (disk : Disk SHCompressed)
      (_ : ValidDisk (shKind sphTerms) (shTable sphTerms) disk) (outcome : SaveOutcome) (ι : Type) [Fintype ι]
      (r : ι → Fin 3 → ℝ), sphericalHarmonics tiny disk outcome r L true cart s =
        .ok fun b j => val (polynomialEx ls (c j) m) (vec (r b)) := by
  obtain ⟨cm, h1, -⟩ := applyNormalization_ok s hs (List.range (L + 1)) List.nodup_range (shTable sphTerms L).cm
  refine ⟨fun i => ((shTable sphTerms L).ls i).map (min · L),
    fun j i => (if cart then gatherColumns (cartPerm L) cm else cm) (i, j), totalCartMonomials L, ?_⟩
  intro tiny disk hd outcome ι _ r
  unfold sphericalHarmonics
  rw [if_neg (by simp), if_neg (by omega)]
  dsimp only
  rw [generate_result (sh_correct _ sphTerms_wellFormed) hd, if_neg (by omega)]
  dsimp only
  rw [Int.toNat_natCast, h1]
  dsimp only
  rw [if_pos rfl]
  dsimp only
  congr 1
  funext b j
  rw [val_polynomialEx]
  simp only [cartesianMonomial_vec]

/-- **C57.** `spherical_harmonics`: there are expressions, one for each component, such that for every batch of vectors
the returned values are those of the expressions, gradients of every order are finite at every vector (zero included),
and, with `r_is_normalized=True` and therefore for `solid_harmonics`, exact at every vector. -/
theorem C57_harmonics (L : ℕ) (cart : Bool) (s : String) (hs : s ∈ normNames) (isNorm : Bool) (tiny : ℝ) (ht : 0 < tiny) :
    ∃ Y : ℕ → Ex, ∀ (disk : Disk SHCompressed) (_ : ValidDisk (shKind sphTerms) (shTable sphTerms) disk)
      (outcome : SaveOutcome) (ι : Type) [Fintype ι] [Nonempty ι] (r : ι → Fin 3 → ℝ),
      ∃ y, sphericalHarmonics tiny disk outcome r L isNorm cart s = .ok y ∧
        ∀ b j, Spec.FiniteAtVector (Y j) (r b) (y b j) ∧
          (isNorm = true → Spec.ExactAtVector (Y j) (r b) fun q => ((eval (Y j) q).getD 0)) := by
  obtain ⟨ls, c, m, h⟩ := harmonics_polynomial L cart s hs
  cases isNorm
  · refine ⟨fun j => subst (normalizeEx tiny) (polynomialEx ls (c j) m), ?_⟩
    intro disk hd outcome ι _ _ r
    have hn := (C41_norm tiny ht r).2.1 inferInstance
    let u : ι → Fin 3 → ℝ := fun i k => r i k / (if Spec.length (r i) * Spec.length (r i) > tiny then Spec.length (r i) else 1)
    have hu : normalize tiny r = .ok u := by
      unfold normalize normalizeAndReturnNorm
      rw [hn]
      rfl
    have hsh : sphericalHarmonics tiny disk outcome r L false cart s = sphericalHarmonics tiny disk outcome u L true cart s := by
      rw [sphericalHarmonics_eq tiny disk hd, sphericalHarmonics_eq tiny disk hd, hu]
      rfl
    refine ⟨_, hsh.trans (h tiny disk hd outcome ι u), fun b j => ⟨finiteAtVector ?_ ?_, by simp⟩⟩
    · exact regular_subst _ _ (fun k => reg_normalizeEx tiny ht.le k _) _ (reg_polynomialEx _ _ _ _)
    · rw [val_subst, val_polynomialEx, val_polynomialEx]
      have e : ∀ k : Fin 3, val (normalizeEx tiny k) (vec (r b)) = vec (u b) k := by
        intro k
        rw [val_normalizeEx]
        simp [vec, u]
      have e0 := e 0
      have e1 := e 1
      have e2 := e 2
      simp only [Fin.val_zero, Fin.val_one, Fin.val_two] at e0 e1 e2
      simp only [e0, e1, e2]
  · refine ⟨fun j => polynomialEx ls (c j) m, ?_⟩
    intro disk hd outcome ι _ _ r
    refine ⟨_, h tiny disk hd outcome ι r, fun b j => ⟨finiteAtVector (reg_polynomialEx _ _ _ _) rfl, fun _ is => ?_⟩⟩
    rw [eval_grads is _ _ (reg_polynomialEx _ _ _ _) (law_polynomialEx _ _ _ _)]
    refine congrArg some (congrFun (congrArg (pds is) (funext fun q => ?_)) _)
    rw [loc_polynomialEx, eval_of_regular _ _ (reg_polynomialEx _ _ _ _)]
    rfl

/-- The helper functions of the radial basis functions. -/
inductive Spec.Helper
  | bernstein | gaussian | fourier | chebyshev

/-- The radial basis functions of e3x with their arguments. -/
inductive Spec.RadialFn
  /-- `sinc` -/
  | sinc (limit : ℝ)
  /-- `basic_*` -/
  | basic (helper : Spec.Helper) (limit : ℝ)
  /-- `reciprocal_*` -/
  | reciprocal (helper : Spec.Helper) (kind : String) (weighting : Bool)
  /-- `exponential_*` -/
  | exponential (helper : Spec.Helper) (gamma : ℝ) (cuspless weighting : Bool)

namespace Spec.RadialFn

/-- The arguments are admissible. -/
def Valid : Spec.RadialFn → Prop
  | .sinc limit => 0 < limit
  | .basic _ limit => 0 < limit
  | .reciprocal _ kind _ => kind ∈ ["shifted", "damped", "cuspless"]
  | .exponential _ _ _ _ => True

/-- What the function returns. -/
noncomputable def result (eps epsneg : ℝ) (num : ℕ) (t : ℝ) : Spec.RadialFn → Except Err (ℕ → ℝ)
  | .sinc limit => .ok (sincBasis t limit)
  | .basic .bernstein limit => basicBasis (E3x.bernstein epsneg) t num limit
  | .basic .gaussian limit => basicBasis E3x.gaussian t num limit
  | .basic .fourier limit => basicBasis E3x.fourier t num limit
  | .basic .chebyshev limit => basicChebyshev epsneg t num limit
  | .reciprocal .bernstein kind w => reciprocalBasis (E3x.bernstein epsneg) eps t num kind w
  | .reciprocal .gaussian kind w => reciprocalBasis E3x.gaussian eps t num kind w
  | .reciprocal .fourier kind w => reciprocalBasis E3x.fourier eps t num kind w
  | .reciprocal .chebyshev kind w => reciprocalChebyshev eps epsneg t num kind w
  | .exponential .bernstein gamma c w => exponentialBasis (E3x.bernstein epsneg) t num gamma c w
  | .exponential .gaussian gamma c w => exponentialBasis E3x.gaussian t num gamma c w
  | .exponential .fourier gamma c w => exponentialBasis E3x.fourier t num gamma c w
  | .exponential .chebyshev gamma c w => exponentialChebyshev epsneg t num gamma c w

/-- Entry `k` of the function as an expression. -/
noncomputable def ex (eps epsneg : ℝ) (num k : ℕ) : Spec.RadialFn → Ex
  | .sinc limit => sincEx limit k
  | .basic .bernstein limit => basicEx (bernsteinEx epsneg (num - 1) k) limit
  | .basic .gaussian limit => basicEx (gaussianEx num k) limit
  | .basic .fourier limit => basicEx (fourierEx k) limit
  | .basic .chebyshev limit => basicChebyshevEx epsneg limit num k
  | .reciprocal .bernstein kind w => mappedEx (bernsteinEx epsneg (num - 1) k) (reciprocalMappingEx eps kind) w
  | .reciprocal .gaussian kind w => mappedEx (gaussianEx num k) (reciprocalMappingEx eps kind) w
  | .reciprocal .fourier kind w => mappedEx (fourierEx k) (reciprocalMappingEx eps kind) w
  | .reciprocal .chebyshev kind w => mappedChebyshevEx (chebyshevEx epsneg num k) (reciprocalMappingEx eps kind) w
  | .exponential .bernstein gamma c w => mappedEx (bernsteinEx epsneg (num - 1) k) (exponentialMappingEx gamma c) w
  | .exponential .gaussian gamma c w => mappedEx (gaussianEx num k) (exponentialMappingEx gamma c) w
  | .exponential .fourier gamma c w => mappedEx (fourierEx k) (exponentialMappingEx gamma c) w
  | .exponential .chebyshev gamma c w => mappedChebyshevEx (chebyshevEx epsneg num k) (exponentialMappingEx gamma c) w

end Spec.RadialFn

theorem radial_fine (eps epsneg t : ℝ) (he : 0 < eps) (he' : 0 < epsneg) (ht : 0 ≤ t) (num : ℕ) (hn : 1 ≤ num)
    (R : Spec.RadialFn) (hR : R.Valid) : ∃ b, R.result eps epsneg num t = .ok b ∧ ∀ k, Fine (R.ex eps epsneg num k) t (b k) := by
  have basic : ∀ {e : ℕ → Ex} {f : ℝ → ℤ → Except Err (ℕ → ℝ)} {limit : ℝ}, Spec.HelperFinite e f num → 0 < limit →
      ∃ b, basicBasis f t num limit = .ok b ∧ ∀ k, Fine (basicEx (e k) limit) t (b k) := by
    intro e f limit hf hl
    obtain ⟨b, hb, hf⟩ := hf (t / limit)
    exact ⟨b, hb, fun k => fine_basic hl.ne' (hf k)⟩
  have reciprocal : ∀ {e : ℕ → Ex} {f : ℝ → ℤ → Except Err (ℕ → ℝ)} {kind : String} {w : Bool}, Spec.HelperFinite e f num →
      kind ∈ ["shifted", "damped", "cuspless"] → ∃ b, reciprocalBasis f eps t num kind w = .ok b ∧
        ∀ k, Fine (mappedEx (e k) (reciprocalMappingEx eps kind) w) t (b k) := by
    intro e f kind w hf hk
    obtain ⟨m, hm, -⟩ := (C57_mapping_finite eps 1 t he ht kind hk true).1
    obtain ⟨b, hb, hf⟩ := hf (1 - m)
    refine ⟨_, by simp only [reciprocalBasis, hm, hb, Except.bind]; rfl, fun k => ?_⟩
    exact fine_mapped w (fine_reciprocal eps t he ht kind m hm) (hf k)
  have exponential : ∀ {e : ℕ → Ex} {f : ℝ → ℤ → Except Err (ℕ → ℝ)} {gamma : ℝ} {c w : Bool}, Spec.HelperFinite e f num →
      ∃ b, exponentialBasis f t num gamma c w = .ok b ∧ ∀ k, Fine (mappedEx (e k) (exponentialMappingEx gamma c) w) t (b k) := by
    intro e f gamma c w hf
    obtain ⟨b, hb, hf⟩ := hf (1 - exponentialMapping t gamma c)
    refine ⟨_, by simp only [exponentialBasis, hb, Except.bind]; rfl, fun k => ?_⟩
    exact fine_mapped w (fine_exponential gamma t c) (hf k)
  have hB := helper_bernstein epsneg he' num hn
  have hG := helper_gaussian num hn
  have hF := helper_fourier num hn
  have hC := helper_chebyshev epsneg he' num hn
  rcases R with limit | ⟨h, limit⟩ | ⟨h, kind, w⟩ | ⟨h, gamma, c, w⟩
  · exact ⟨_, rfl, fun k => fine_sinc limit t k (ne_of_gt hR)⟩
  · cases h
    · exact basic hB hR
    · exact basic hG hR
    · exact basic hF hR
    · obtain ⟨c, hc, -⟩ := hC (2 * t / limit - 1)
      have hb : basicChebyshev epsneg t num limit =
          .ok fun k => if |2 * t / limit - 1| ≤ 1 then c k else signFn (2 * t / limit - 1) ^ k := by
        simp only [basicChebyshev, hc, Except.bind]
      exact ⟨_, hb, fun k => fine_basicChebyshev epsneg t limit he' (ne_of_gt hR) k num (by omega) _ hb⟩
  · cases h
    · exact reciprocal hB hR
    · exact reciprocal hG hR
    · exact reciprocal hF hR
    · obtain ⟨m, hm, -⟩ := (C57_mapping_finite eps 1 t he ht kind hR true).1
      obtain ⟨b, hb, hf⟩ := hC (2 * m - 1)
      refine ⟨_, by simp only [Spec.RadialFn.result, reciprocalChebyshev, hm, hb, Except.bind]; rfl, fun k => ?_⟩
      exact fine_mappedChebyshev w (fine_reciprocal eps t he ht kind m hm) (hf k)
  · cases h
    · exact exponential hB
    · exact exponential hG
    · exact exponential hF
    · obtain ⟨b, hb, hf⟩ := hC (2 * exponentialMapping t gamma c - 1)
      refine ⟨_, by simp only [Spec.RadialFn.result, exponentialChebyshev, hb, Except.bind]; rfl, fun k => ?_⟩
      exact fine_mappedChebyshev w (fine_exponential gamma t c) (hf k)

/-- **C57.** The radial basis functions: at every distance, zero included, the computed values are those of the model,
and the computed derivatives of every order are finite. -/
theorem C57_radial_finite (eps epsneg t : ℝ) (he : 0 < eps) (he' : 0 < epsneg) (ht : 0 ≤ t) (num : ℕ) (hn : 1 ≤ num)
    (R : Spec.RadialFn) (hR : R.Valid) :
    ∃ b, R.result eps epsneg num t = .ok b ∧ ∀ k, Spec.FiniteAt (R.ex eps epsneg num k) t (b k) := by
  obtain ⟨b, hb, h⟩ := radial_fine eps epsneg t he he' ht num hn R hR
  exact ⟨b, hb, fun k => (h k).finiteAt⟩

theorem basis_fine {ι : Type} [Fintype ι] [Nonempty ι] (tiny : ℝ) (ht : 0 < tiny) (disk : Disk SHCompressed)
    (hd : ValidDisk (shKind sphTerms) (shTable sphTerms) disk) (outcome : SaveOutcome) (L num : ℕ) (cart : Bool)
    (radial : ℕ → Ex) (g : ℝ → ℕ → ℝ) (hg : ∀ t, 0 ≤ t → ∀ f, Fine (radial f) t (g t f))
    (radialFn : (ι → ℝ) → ℕ → Except Err (ι → ℕ → ℝ)) (hgm : ∀ n, (∀ b, 0 ≤ n b) → radialFn n num = .ok fun b => g (n b))
    (cutoff : Option (Ex × (ℝ → ℝ) × ((ι → ℝ) → Except Err (ι → ℝ))))
    (damping : Option (Ex × (ℝ → ℝ) × ((ι → ℝ) → Except Err (ι → ℝ))))
    (hc : ∀ p ∈ cutoff, ∀ t, 0 ≤ t → Fine p.1 t (p.2.1 t))
    (hcm : ∀ p ∈ cutoff, ∀ n, (∀ b, 0 ≤ n b) → p.2.2 n = .ok fun b => p.2.1 (n b))
    (hdm : ∀ p ∈ damping, ∀ t, 0 ≤ t → Fine p.1 t (p.2.1 t))
    (hdmm : ∀ p ∈ damping, ∀ n, (∀ b, 0 ≤ n b) → p.2.2 n = .ok fun b => p.2.1 (n b)) :
    ∃ (ls : ℕ → List ℕ) (c : ℕ → ℕ → ℝ) (m : ℕ), ∀ (r : ι → Fin 3 → ℝ), ∃ res,
      basis tiny r L num radialFn (defaultAngularFn tiny disk outcome) (cutoff.map fun p => p.2.2) false false
        (damping.map fun p => p.2.2) cart = .ok res ∧
      ∀ b p i f, Regular (basisEx radial (fun j => polynomialEx ls (c j) m) (cutoff.map Prod.fst)
        (damping.map Prod.fst) i f) (vec (r b)) ∧ val (basisEx radial (fun j => polynomialEx ls (c j) m)
          (cutoff.map Prod.fst) (damping.map Prod.fst) i f) (vec (r b)) = (res.out b).val p i f := by
  obtain ⟨ls, c, m, h⟩ := harmonics_polynomial L cart "racah" (by decide)
  refine ⟨ls, c, m, fun r => ?_⟩
  have hn := (C41_norm tiny ht r).2.1 inferInstance
  have hpos : ∀ b, 0 ≤ Spec.length (r b) := fun b => Real.sqrt_nonneg _
  have hreg : ∀ b i f, Regular (basisEx radial (fun j => polynomialEx ls (c j) m) (cutoff.map Prod.fst)
      (damping.map Prod.fst) i f) (vec (r b)) := by
    intro b i f
    refine reg_basisEx _ _ _ _ _ (fun f => ?_) (fun i => reg_polynomialEx _ _ _ _) ?_ ?_ i f
    · rw [val_normEx]; exact (hg _ (hpos b) f).1
    · intro e he
      rw [Option.mem_map] at he
      obtain ⟨p, hp, rfl⟩ := he
      rw [val_normEx]; exact (hc p hp _ (hpos b)).1
    · intro e he
      rw [Option.mem_map] at he
      obtain ⟨p, hp, rfl⟩ := he
      rw [val_normEx]; exact (hdm p hp _ (hpos b)).1
  have hval : ∀ b i, val (subst unitEx (polynomialEx ls (c i) m)) (vec (r b)) =
      val (polynomialEx ls (c i) m) (vec (unitVectors r (fun i => Spec.length (r i)) b)) := by
    intro b i
    rw [val_subst, val_polynomialEx, val_polynomialEx]
    have e : ∀ k : Fin 3, val (unitEx k) (vec (r b)) = vec (unitVectors r (fun i => Spec.length (r i)) b) k := by
      intro k
      rw [val_unitEx]
      simp [vec, unitVectors]
    have e0 := e 0
    have e1 := e 1
    have e2 := e 2
    simp only [Fin.val_zero, Fin.val_one, Fin.val_two] at e0 e1 e2
    simp only [e0, e1, e2]
  have hrad : ∀ b f, val (at' (radial f) normEx) (vec (r b)) = g (Spec.length (r b)) f := by
    intro b f
    rw [val_at', val_normEx, (hg _ (hpos b) f).2]
  unfold basis
  rw [if_neg (by simp), if_neg (by simp)]
  simp only [Bind.bind, Except.bind, hn, hgm _ hpos, defaultAngularFn, h tiny disk hd outcome ι]
  rcases cutoff with _ | ⟨ec, C, mc⟩ <;> rcases damping with _ | ⟨ed, D, md⟩ <;>
    simp only [Option.map_none, Option.map_some, pure, Except.pure, Option.isSome_none, Option.isSome_some,
      Bool.false_eq_true, false_and, and_false, or_self, if_false] at hreg hc hcm hdm hdmm ⊢
  · refine ⟨_, rfl, fun b p i f => ⟨hreg b i f, ?_⟩⟩
    simp only [basisEx, val_mul, hval, hrad]
  · have hD := hdmm _ rfl _ hpos
    simp only at hD
    rw [hD]
    refine ⟨_, rfl, fun b p i f => ⟨hreg b i f, ?_⟩⟩
    have hv := (hdm _ rfl _ (hpos b)).2
    simp only at hv
    simp only [basisEx, applyDamping]
    split_ifs <;> simp only [val_mul, hval, hrad, val_at', val_normEx, hv]
  · have hC := hcm _ rfl _ hpos
    simp only at hC
    rw [hC]
    refine ⟨_, rfl, fun b p i f => ⟨hreg b i f, ?_⟩⟩
    have hw := (hc _ rfl _ (hpos b)).2
    simp only at hw
    simp only [basisEx, val_mul, hval, hrad, val_at', val_normEx, hw]
  · have hC := hcm _ rfl _ hpos
    have hD := hdmm _ rfl _ hpos
    simp only at hC hD
    rw [hC]
    simp only [hD]
    refine ⟨_, rfl, fun b p i f => ⟨hreg b i f, ?_⟩⟩
    have hv := (hdm _ rfl _ (hpos b)).2
    have hw := (hc _ rfl _ (hpos b)).2
    simp only at hv hw
    simp only [basisEx, applyDamping]
    split_ifs <;> simp only [val_mul, hval, hrad, val_at', val_normEx, hv, hw]

/-! ### Derivatives of the computed functions -/

/-- the derivatives at `t` are those of the values -/
def AD.Ex.Auto (e : Ex) (t : ℝ) : Prop := Jet e t fun s => val e fun _ => s

theorem auto_of_jets {e : Ex} {t : ℝ} {F : ℝ → ℝ} (h : ∀ᶠ s in 𝓝 t, Jet e s F) : Auto e t :=
  h.self_of_nhds.congr (by filter_upwards [h] with s hs; exact hs.val.symm)

theorem auto_mapped {f m : Ex} {t : ℝ} (hm : Auto m t) (hf : Auto f (1 - val m fun _ => t)) (w : Bool) :
    Auto (mappedEx f m w) t := by
  refine (jet_mapped hm hf w).congr (Eventually.of_forall fun s => ?_)
  cases w <;> simp [mappedEx, val_mul, val_at', val_sub, val_const]

theorem auto_mappedChebyshev {f m : Ex} {t : ℝ} (hm : Auto m t) (hf : Auto f (2 * (val m fun _ => t) - 1)) (w : Bool) :
    Auto (mappedChebyshevEx f m w) t := by
  refine (jet_mappedChebyshev hm hf w).congr (Eventually.of_forall fun s => ?_)
  cases w <;> simp [mappedChebyshevEx, val_mul, val_at', val_sub, val_const]

theorem auto_basic {f : Ex} {t limit : ℝ} (hl : limit ≠ 0) (hf : Auto f (t / limit)) : Auto (basicEx f limit) t := by
  refine (Jet.comp ((Jet.x (t := t)).div (Jet.const limit) hl) hf).congr (Eventually.of_forall fun s => ?_)
  simp [basicEx, val_at', val_div, val_const, val_x]

theorem auto_bernstein (eps t : ℝ) (h0 : 0 < eps) (h1 : eps < 1 / 2) (n v : ℕ) (hv : v ≤ n) (h2 : eps < t)
    (h3 : t < 1 - eps) : Auto (bernsteinEx eps n v) t :=
  auto_of_jets (by filter_upwards [Ioo_mem_nhds h2 h3] with s hs; exact jet_bernstein_mid eps s h0 h1 n v hv hs.1.le hs.2.le)

theorem auto_gaussian (t : ℝ) (num : ℤ) (k : ℕ) : Auto (gaussianEx num k) t :=
  auto_of_jets (Eventually.of_forall fun s => jet_gaussian s num k)

theorem auto_fourier (t : ℝ) (k : ℕ) : Auto (fourierEx k) t := auto_of_jets (Eventually.of_forall fun s => jet_fourier s k)

theorem auto_chebyshev (eps t : ℝ) (h0 : 0 < eps) (h2 : -(1 - eps) < t) (h3 : t < 1 - eps) (num k : ℕ) (hk : k < num) :
    Auto (chebyshevEx eps num k) t :=
  auto_of_jets (by filter_upwards [Ioo_mem_nhds h2 h3] with s hs; exact jet_chebyshev eps s h0 hs.1.le hs.2.le num k hk)

theorem auto_sinc (limit t : ℝ) (hl : 0 < limit) (h : t ≠ limit) (k : ℕ) : Auto (sincEx limit k) t := by
  rcases lt_or_gt_of_ne h with h | h
  · exact auto_of_jets (by filter_upwards [Iio_mem_nhds h] with s hs; exact jet_sinc_le limit s hl (le_of_lt hs) k)
  · exact auto_of_jets (by filter_upwards [Ioi_mem_nhds h] with s hs; exact jet_sinc_gt limit s hl hs k)

theorem auto_exponential (gamma t : ℝ) (c : Bool) : Auto (exponentialMappingEx gamma c) t :=
  auto_of_jets (Eventually.of_forall fun s => jet_exponential gamma s c)

theorem auto_reciprocal (eps t : ℝ) (he : 0 < eps) (ht : 0 < t) (kind : String) (hk : kind ∈ ["shifted", "damped", "cuspless"])
    (hd : kind = "damped" → t ≠ eps) : Auto (reciprocalMappingEx eps kind) t := by
  simp only [List.mem_cons, List.not_mem_nil, or_false] at hk
  rcases hk with rfl | rfl | rfl
  · exact auto_of_jets (by filter_upwards [Ioi_mem_nhds ht] with s hs; exact jet_shifted s (le_of_lt hs))
  · rcases lt_or_gt_of_ne (hd rfl) with h | h
    · exact auto_of_jets (by filter_upwards [Iio_mem_nhds h] with s hs; exact jet_damped_small eps s hs)
    · exact auto_of_jets (by filter_upwards [Ioi_mem_nhds h] with s hs; exact jet_damped eps s he (le_of_lt hs))
  · exact auto_of_jets (Eventually.of_forall fun s => jet_cuspless s)

theorem auto_basicChebyshev (eps limit t : ℝ) (h0 : 0 < eps) (hl : 0 < limit) (h2 : -(1 - eps) < 2 * t / limit - 1)
    (h3 : 2 * t / limit - 1 < 1 - eps) (num k : ℕ) (hk : k < num) : Auto (basicChebyshevEx eps limit num k) t := by
  have hx : ∀ s, Jet (const 2 * x / const limit - const 1) s fun s => 2 * s / limit - 1 := fun s =>
    (((Jet.const 2).mul (Jet.x (t := s))).div (Jet.const limit) hl.ne').sub (Jet.const 1)
  have hc : ContinuousAt (fun s : ℝ => 2 * s / limit - 1) t := by fun_prop
  refine auto_of_jets (F := fun s => (Polynomial.Chebyshev.T ℝ k).eval (2 * s / limit - 1)) ?_
  filter_upwards [hc.eventually (Ioo_mem_nhds h2 h3)] with s hs
  have hT : T (le (abs (const 2 * x / const limit - const 1)) (const 1)) fun _ => s := by
    rw [T_le]
    have : val (abs (const 2 * x / const limit - const 1)) (fun _ => s) = |2 * s / limit - 1| := by
      rw [val_abs, (hx s).val]
    rw [this, val_const, abs_le]
    constructor <;> linarith [hs.1, hs.2]
  unfold basicChebyshevEx
  refine Jet.sel_left hT ?_ (Jet.comp (hx s) (jet_chebyshev eps _ h0 hs.1.le hs.2.le num k hk)) ?_
  · have hx := (hx s).ok
    have hneg : Jet.Ok (-(const 2 * x / const limit - const 1)) s := ⟨(reg_neg _ _).mpr hx.1, (law_neg _ _).mpr hx.2⟩
    exact Jet.ok_le (Jet.ok_sel (Jet.ok_lt (Jet.ok_const 0) hx) hx
      (Jet.ok_sel (Jet.ok_lt hx (Jet.ok_const 0)) hneg (Jet.ok_const 0))) (Jet.ok_const 1)
  · have h1 := Jet.ok_lt (Jet.ok_const 0) (hx s).ok
    have h2 := Jet.ok_lt (hx s).ok (Jet.ok_const 0)
    exact ⟨reg_pow ((reg_sub _ _ _).mpr ⟨h1.1, h2.1⟩) k, law_pow ((law_sub _ _ _).mpr ⟨h1.2, h2.2⟩) k⟩

/-- The helper function is used away from the points where its code switches to another formula: `u` is the argument,
which lies in `[0, 1]`. -/
def Spec.Helper.Interior (eps u : ℝ) : Spec.Helper → Prop
  | .bernstein => eps < u ∧ u < 1 - eps
  | .chebyshev => eps / 2 < u ∧ u < 1 - eps / 2
  | _ => True

/-- The distance `t` is positive and not within `eps` of a point where the code switches to another formula. -/
def Spec.RadialFn.Interior (eps epsneg t : ℝ) : Spec.RadialFn → Prop
  | .sinc limit => t ≠ limit
  | .basic h limit => h.Interior epsneg (t / limit)
  | .reciprocal h kind _ => (kind = "damped" → t ≠ eps) ∧
      ∀ m, reciprocalMapping eps t kind = .ok m → h.Interior epsneg m
  | .exponential h gamma c _ => h.Interior epsneg (exponentialMapping t gamma c)

theorem radial_auto (eps epsneg t : ℝ) (he : 0 < eps) (he' : 0 < epsneg) (he2 : epsneg < 1 / 2) (ht : 0 < t) (num k : ℕ)
    (hk : k < num) (R : Spec.RadialFn) (hR : R.Valid) (hi : R.Interior eps epsneg t) : Auto (R.ex eps epsneg num k) t := by
  rcases R with limit | ⟨h, limit⟩ | ⟨h, kind, w⟩ | ⟨h, gamma, c, w⟩
  · exact auto_sinc limit t hR hi k
  · have hl : 0 < limit := hR
    cases h
    · exact auto_basic hl.ne' (auto_bernstein _ _ he' he2 _ _ (by omega) hi.1 hi.2)
    · exact auto_basic hl.ne' (auto_gaussian _ _ _)
    · exact auto_basic hl.ne' (auto_fourier _ _)
    · obtain ⟨h1, h2⟩ : epsneg / 2 < t / limit ∧ t / limit < 1 - epsneg / 2 := hi
      have e : 2 * t / limit = 2 * (t / limit) := by ring
      exact auto_basicChebyshev _ _ _ he' hl (by rw [e]; linarith) (by rw [e]; linarith) num k hk
  · obtain ⟨hd, hi⟩ := hi
    have hm := auto_reciprocal eps t he ht kind hR hd
    obtain ⟨m, hm1, -⟩ := (C57_mapping_finite eps 1 t he ht.le kind hR true).1
    have hv := (fine_reciprocal eps t he ht.le kind m hm1).2
    have hi := hi m hm1
    cases h
    · refine auto_mapped hm ?_ w
      rw [hv]
      obtain ⟨h1, h2⟩ : epsneg < m ∧ m < 1 - epsneg := hi
      exact auto_bernstein _ _ he' he2 _ _ (by omega) (by linarith) (by linarith)
    · exact auto_mapped hm (auto_gaussian _ _ _) w
    · exact auto_mapped hm (auto_fourier _ _) w
    · refine auto_mappedChebyshev hm ?_ w
      rw [hv]
      obtain ⟨h1, h2⟩ : epsneg / 2 < m ∧ m < 1 - epsneg / 2 := hi
      exact auto_chebyshev _ _ he' (by linarith) (by linarith) num k hk
  · have hm := auto_exponential gamma t c
    have hv := (fine_exponential gamma t c).2
    cases h
    · refine auto_mapped hm ?_ w
      rw [hv]
      obtain ⟨h1, h2⟩ : epsneg < exponentialMapping t gamma c ∧ exponentialMapping t gamma c < 1 - epsneg := hi
      exact auto_bernstein _ _ he' he2 _ _ (by omega) (by linarith) (by linarith)
    · exact auto_mapped hm (auto_gaussian _ _ _) w
    · exact auto_mapped hm (auto_fourier _ _) w
    · refine auto_mappedChebyshev hm ?_ w
      rw [hv]
      obtain ⟨h1, h2⟩ : epsneg / 2 < exponentialMapping t gamma c ∧ exponentialMapping t gamma c < 1 - epsneg / 2 := hi
      exact auto_chebyshev _ _ he' (by linarith) (by linarith) num k hk

/-- **C57.** The radial basis functions: at positive distances away from the points where the code switches to another
formula, the computed derivatives of every order are those of the computed function. -/
theorem C57_radial_consistent (eps epsneg t : ℝ) (he : 0 < eps) (he' : 0 < epsneg) (he2 : epsneg < 1 / 2) (ht : 0 < t)
    (num k : ℕ) (hk : k < num) (R : Spec.RadialFn) (hR : R.Valid) (hi : R.Interior eps epsneg t) (g : ℝ → ℕ → ℝ)
    (hg : ∀ s, 0 ≤ s → R.result eps epsneg num s = .ok (g s)) :
    Spec.ExactAt (R.ex eps epsneg num k) t fun s => g s k := by
  refine ((radial_auto eps epsneg t he he' he2 ht num k hk R hR hi).congr ?_).exactAt
  filter_upwards [Ioi_mem_nhds ht] with s hs
  obtain ⟨b, hb, h⟩ := radial_fine eps epsneg s he he' (le_of_lt hs) num (by omega) R hR
  rw [hg s (le_of_lt hs)] at hb
  rw [(h k).2, Except.ok.inj hb]

/-! ### `basis` -/

/-- The cutoff functions with their argument. -/
inductive Spec.CutoffFn
  /-- `smooth_cutoff` -/
  | smooth (cutoff : ℝ)
  /-- `cosine_cutoff` -/
  | cosine (cutoff : ℝ)

namespace Spec.CutoffFn

/-- The argument `cutoff`. -/
def cutoff : Spec.CutoffFn → ℝ
  | .smooth c => c
  | .cosine c => c

/-- What the function returns. -/
noncomputable def result (t : ℝ) : Spec.CutoffFn → Except Err ℝ
  | .smooth c => smoothCutoff t c
  | .cosine c => cosineCutoff t c

/-- The function as an expression. -/
noncomputable def ex : Spec.CutoffFn → Ex
  | .smooth c => smoothCutoffEx c
  | .cosine c => cosineCutoffEx c

end Spec.CutoffFn

theorem cutoff_fine (C : Spec.CutoffFn) (hC : 0 < C.cutoff) (t y : ℝ) (ht : 0 ≤ t) (h : C.result t = .ok y) :
    Fine C.ex t y := by
  cases C
  · exact fine_smoothCutoff _ _ hC ht _ h
  · exact fine_cosineCutoff _ _ hC _ h

theorem cutoff_auto (C : Spec.CutoffFn) (hC : 0 < C.cutoff) (t : ℝ) (ht : 0 < t) (h : t ≠ C.cutoff) : Auto C.ex t := by
  cases C with
  | smooth c =>
    rcases lt_or_gt_of_ne h with h | h
    · exact auto_of_jets (by filter_upwards [Ioo_mem_nhds ht h] with s hs; exact jet_smoothCutoff_lt c s hC hs.1.le hs.2)
    · exact auto_of_jets (by filter_upwards [Ioi_mem_nhds h] with s hs; exact jet_smoothCutoff_ge c s hC (le_of_lt hs))
  | cosine c =>
    rcases lt_or_gt_of_ne h with h | h
    · exact auto_of_jets (by filter_upwards [Iio_mem_nhds h] with s hs; exact jet_cosineCutoff_lt c s hC hs)
    · exact auto_of_jets (by filter_upwards [Ioi_mem_nhds h] with s hs; exact jet_cosineCutoff_ge c s hC (le_of_lt hs))

theorem damping_auto (gamma t : ℝ) (hg : 0 < gamma) (ht : 0 < t) : Auto (smoothDampingEx gamma) t :=
  auto_of_jets (by filter_upwards [Ioi_mem_nhds ht] with s hs; exact jet_damping_pos gamma s hg hs)

theorem val_basisEx (radial : ℕ → Ex) (ls : ℕ → List ℕ) (c : ℕ → ℕ → ℝ) (m : ℕ) (cutoff damping : Option Ex) (f i : ℕ)
    (q : ℕ → ℝ) (h : 0 < val normEx q) :
    val (basisEx radial (fun i => polynomialEx ls (c i) m) cutoff damping i f) q =
      val (polynomialEx ls (c i) m) (fun k => q k / val normEx q) *
        AD.Ex.radialPart (fun s => val (radial f) fun _ => s) (cutoff.map fun e s => val e fun _ => s)
          (damping.map fun e s => val e fun _ => s) i (val normEx q) := by
  have hu : val (subst unitEx (polynomialEx ls (c i) m)) q = val (polynomialEx ls (c i) m) (fun k => q k / val normEx q) := by
    rw [val_subst]
    congr 1
    funext k
    unfold unitEx
    rw [val_div, val_sel, if_pos (by rw [T_lt]; exact h), val_var]
  rcases cutoff with _ | ec <;> rcases damping with _ | ed <;>
    simp only [basisEx, AD.Ex.radialPart, Option.map_none, Option.map_some]
  · rw [val_mul, hu, val_at']; ring
  · split_ifs
    · rw [val_mul, val_mul, hu, val_at', val_at']; ring
    · rw [val_mul, hu, val_at']; ring
  · rw [val_mul, val_mul, hu, val_at', val_at']; ring
  · split_ifs
    · rw [val_mul, val_mul, val_mul, hu, val_at', val_at', val_at']; ring
    · rw [val_mul, val_mul, hu, val_at', val_at']; ring

/-- **C57.** `basis`, with any of the radial basis functions, the default angular function, a cutoff function or none and
`smooth_damping` or none: for every component there is an expression such that, for every batch of displacement vectors,

* the returned values are those of the expression, and gradients of every order are finite at every displacement vector:
  at the zero vector, at the cutoff and beyond it;
* at every nonzero vector whose length is not the cutoff, nor one where the code of the radial function switches to
  another formula, the computed derivatives of every order are those of the function which `basis` computes. -/
theorem C57_basis {ι : Type} [Fintype ι] [Nonempty ι] (eps epsneg tiny : ℝ) (he : 0 < eps) (he' : 0 < epsneg)
    (he2 : epsneg < 1 / 2) (ht : 0 < tiny) (disk : Disk SHCompressed)
    (hd : ValidDisk (shKind sphTerms) (shTable sphTerms) disk) (outcome : SaveOutcome) (L num : ℕ) (hn : 1 ≤ num)
    (cart : Bool) (R : Spec.RadialFn) (hR : R.Valid) (C : Option Spec.CutoffFn) (hC : ∀ c ∈ C, 0 < c.cutoff)
    (D : Option ℝ) (hD : ∀ gamma ∈ D, 0 < gamma)
    (g : ℝ → ℕ → ℝ) (hg : ∀ t, 0 ≤ t → R.result eps epsneg num t = .ok (g t))
    (cut : Spec.CutoffFn → ℝ → ℝ) (hcut : ∀ c ∈ C, ∀ t, 0 ≤ t → c.result t = .ok (cut c t))
    (B : (ι → Fin 3 → ℝ) → Except Err (BasisResult ι))
    (hB : ∀ r, B r = basis tiny r L num (fun n _ => .ok fun b => g (n b)) (defaultAngularFn tiny disk outcome)
      (C.map fun c n => .ok fun b => cut c (n b)) false false
      (D.map fun gamma n => .ok fun b => smoothDamping (n b) gamma) cart) :
    ∃ e : ℕ → ℕ → Ex,
      (∀ r, ∃ res, B r = .ok res ∧ ∀ b p i f, Spec.FiniteAtVector (e i f) (r b) ((res.out b).val p i f)) ∧
      (∀ v, v ≠ 0 → R.Interior eps epsneg (Spec.length v) → (∀ c ∈ C, Spec.length v ≠ c.cutoff) →
        ∀ i f, f < num → ∀ V : (Fin 3 → ℝ) → ℝ,
          (∀ w, ∃ res, B (fun _ => w) = .ok res ∧ ∀ b, (res.out b).val 0 i f = V w) →
            Spec.ExactAtVector (e i f) v fun q => V fun k => q k) := by
  have hfine : ∀ t, 0 ≤ t → ∀ f, Fine (R.ex eps epsneg num f) t (g t f) := by
    intro t ht f
    obtain ⟨b, hb, h⟩ := radial_fine eps epsneg t he he' ht num hn R hR
    rw [hg t ht] at hb
    rw [Except.ok.inj hb]
    exact h f
  obtain ⟨ls, cf, m, h⟩ := basis_fine (ι := ι) tiny ht disk hd outcome L num cart (R.ex eps epsneg num) g hfine
    (fun n _ => .ok fun b => g (n b)) (fun _ _ => rfl)
    (C.map fun c => (c.ex, cut c, fun n => .ok fun b => cut c (n b)))
    (D.map fun gamma => (smoothDampingEx gamma, fun t => smoothDamping t gamma,
      fun n => .ok fun b => smoothDamping (n b) gamma))
    (by
      intro p hp t ht
      rw [Option.mem_map] at hp
      obtain ⟨c, hc, rfl⟩ := hp
      exact cutoff_fine c (hC c hc) t _ ht (hcut c hc t ht))
    (by
      intro p hp n _
      rw [Option.mem_map] at hp
      obtain ⟨c, hc, rfl⟩ := hp
      rfl)
    (by
      intro p hp t ht
      rw [Option.mem_map] at hp
      obtain ⟨c, hc, rfl⟩ := hp
      exact fine_smoothDamping c t)
    (by
      intro p hp n _
      rw [Option.mem_map] at hp
      obtain ⟨c, hc, rfl⟩ := hp
      rfl)
  simp only [Option.map_map, Function.comp_def] at h
  refine ⟨fun i f => basisEx (R.ex eps epsneg num) (fun j => polynomialEx ls (cf j) m) (C.map fun c => c.ex)
    (D.map fun gamma => smoothDampingEx gamma) i f, ?_, ?_⟩
  · intro r
    rw [hB]
    obtain ⟨res, h1, h2⟩ := h r
    exact ⟨res, h1, fun b p i f => finiteAtVector (h2 b p i f).1 (h2 b p i f).2⟩
  · intro v hv hi hcv i f hf V hV is
    have hl : 0 < Spec.length v := by
      refine Real.sqrt_pos.mpr ?_
      obtain ⟨k, hk⟩ := Function.ne_iff.mp hv
      exact lt_of_lt_of_le (sq_pos_of_ne_zero hk : 0 < v k ^ 2)
        (Finset.single_le_sum (f := fun k => v k ^ 2) (fun _ _ => sq_nonneg _) (Finset.mem_univ k))
    have hl' : 0 < val normEx (vec v) := by rw [val_normEx]; exact hl
    have hgerm := germ_basis (R.ex eps epsneg num) ls cf m
      (C.map fun c => (c.ex, fun s => val c.ex fun _ => s))
      (D.map fun gamma => (smoothDampingEx gamma, fun s => val (smoothDampingEx gamma) fun _ => s)) (vec v) hl' f i
      (R := fun s => val (R.ex eps epsneg num f) fun _ => s)
      (by rw [val_normEx]; exact radial_auto eps epsneg _ he he' he2 hl num f hf R hR hi)
      (by
        intro p hp
        rw [Option.mem_map] at hp
        obtain ⟨c, hc, rfl⟩ := hp
        rw [val_normEx]
        exact cutoff_auto c (hC c hc) _ hl (hcv c hc))
      (by
        intro p hp
        rw [Option.mem_map] at hp
        obtain ⟨c, hc, rfl⟩ := hp
        rw [val_normEx]
        exact damping_auto c _ (hD c hc) hl) is
    simp only [Option.map_map, Function.comp_def] at hgerm
    rw [hgerm]
    refine congrArg some (pds_congr is ?_).self_of_nhds
    filter_upwards [continuous_normEx.continuousAt.eventually (Ioi_mem_nhds hl')] with q hq
    have hq : 0 < val normEx q := hq
    have hw : val normEx (vec fun k => q k) = val normEx q := rfl
    obtain ⟨res, h1, h2⟩ := hV fun k => q k
    obtain ⟨res', h1', h2'⟩ := h fun _ k => q k
    rw [hB, h1'] at h1
    obtain rfl := Except.ok.inj h1
    obtain ⟨b⟩ := ‹Nonempty ι›
    have h3 := (h2' b 0 i f).2
    rw [h2 b, val_basisEx _ _ _ _ _ _ _ _ _ (by rw [hw]; exact hq), hw] at h3
    simp only [Option.map_map, Function.comp_def] at h3
    rw [← h3, val_polynomialEx, val_polynomialEx]
    rfl

/-! ### What the safe substitutions are for, and where derivatives are not exact -/

/-- `smooth_cutoff` with `cutoff=1.0` without the substitution of `safe_x`. -/
noncomputable def Spec.unsafeCutoffEx : Ex :=
  sel (lt x (const 1)) (exp (const 1 - const 1 / (const 1 - x * x))) (const 0)

/-- `ops.norm` without its hand-written derivative. -/
noncomputable def Spec.unsafeNormEx : Ex := sqrt (var 0 * var 0 + var 1 * var 1 + var 2 * var 2)

/-- **C57.** The model tells finite values from finite gradients: written naively, the cutoff function and the norm have
the same values, but no finite gradient at the cutoff and at the zero vector. -/
theorem C57_naive_gradients_not_finite :
    (Spec.jaxDerivative 0 Spec.unsafeCutoffEx 1 = some 0 ∧ Spec.jaxDerivative 1 Spec.unsafeCutoffEx 1 = none) ∧
    (eval Spec.unsafeNormEx (vec 0) = some 0 ∧ eval (grad 0 Spec.unsafeNormEx) (vec 0) = none) := by
  refine ⟨⟨?_, ?_⟩, ?_, ?_⟩
  · simp [Spec.jaxDerivative, grads, Spec.unsafeCutoffEx, eval, x]
  · simp [Spec.jaxDerivative, grads, grad, bp, Spec.unsafeCutoffEx, eval, x, exp, sub_def, neg_def, mul_def, div_def,
      add_def]
  · simp [Spec.unsafeNormEx, eval, mul_def, add_def, vec]
  · simp [Spec.unsafeNormEx, eval, grad, bp, mul_def, add_def, div_def, vec]

/-- **C57.** The exactness of `C57_basis` does not extend to the zero vector: for the first function of
`basic_gaussian(norm(r), num=2, limit=1.0)`, which is `exp(-2 |r|²)`, the computed second derivative with respect to the
first coordinate is 0 at the zero vector (finite, but wrong), whereas the true one is -4. -/
theorem C57_zero_vector_second_derivative_inexact :
    (∀ v, ∃ g, E3x.gaussian (Spec.length v) 2 = .ok g ∧
      Spec.FiniteAtVector (at' (gaussianEx 2 0) normEx) v (g 0) ∧ g 0 = Real.exp (-2 * Spec.radius (vec v) ^ 2)) ∧
    eval (grads [0, 0] (at' (gaussianEx 2 0) normEx)) (vec 0) = some 0 ∧
    pds [0, 0] (fun r => Real.exp (-2 * Spec.radius r ^ 2)) (vec 0) = -4 := by
  refine ⟨fun v => ?_, ?_, ?_⟩
  · obtain ⟨g, hg, hf⟩ := helper_gaussian 2 (by norm_num) (Spec.length v)
    have hf := hf 0
    refine ⟨g, hg, finiteAtVector (reg_at' (reg_normEx _) (by rw [val_normEx]; exact hf.1)) ?_, ?_⟩
    · rw [val_at', val_normEx]; exact hf.2
    · have h1 := (jet_gaussian (Spec.length v) 2 0).val
      have h2 : Spec.radius (vec v) = Spec.length v := val_normEx v
      have h3 : √(4 : ℝ) = 2 := by rw [Real.sqrt_eq_iff_mul_self_eq] <;> norm_num
      rw [← hf.2, h2]
      refine h1.trans ?_
      norm_num [h3]
  · simp [gaussianEx, at', subst, normEx, grads, grad, bp, exp, sub_def, neg_def, mul_def, div_def, add_def, x]
    simp [eval, mul_def, add_def, div_def, vec, neg_def]
  · have hF : (fun r : ℕ → ℝ => Real.exp (-2 * Spec.radius r ^ 2)) =
        fun r => Real.exp (-2 * (r 0 ^ 2 + r 1 ^ 2 + r 2 ^ 2)) := by
      funext r
      rw [Spec.radius, Real.sq_sqrt (by positivity)]
    have h1 : pd 0 (fun r => Real.exp (-2 * Spec.radius r ^ 2)) =
        fun r => Real.exp (-2 * (r 0 ^ 2 + r 1 ^ 2 + r 2 ^ 2)) * (-4 * r 0) := by
      rw [hF]
      funext r
      simp only [pd, Function.update_self, ne_eq, one_ne_zero, not_false_eq_true, Function.update_of_ne,
        OfNat.ofNat_ne_zero]
      have h : HasDerivAt (fun t : ℝ => -2 * (t ^ 2 + r 1 ^ 2 + r 2 ^ 2)) (-4 * r 0) (r 0) := by
        have := (((hasDerivAt_pow 2 (r 0)).add_const (r 1 ^ 2)).add_const (r 2 ^ 2)).const_mul (-2)
        refine this.congr_deriv ?_
        simp
        ring
      exact h.exp.deriv
    simp only [pds, h1]
    simp only [pd, Function.update_self, ne_eq, one_ne_zero, not_false_eq_true, Function.update_of_ne,
      OfNat.ofNat_ne_zero]
    have e0 : vec 0 0 = 0 := rfl
    have e1 : vec 0 1 = 0 := rfl
    have e2 : vec 0 2 = 0 := rfl
    rw [e0, e1, e2]
    have h : HasDerivAt (fun t : ℝ => Real.exp (-2 * (t ^ 2 + 0 ^ 2 + 0 ^ 2)) * (-4 * t)) (-4) 0 := by
      have hd : DifferentiableAt ℝ (fun t : ℝ => Real.exp (-2 * (t ^ 2 + 0 ^ 2 + 0 ^ 2))) 0 := by fun_prop
      have := hd.hasDerivAt.mul ((hasDerivAt_id (0 : ℝ)).const_mul (-4))
      refine this.congr_deriv ?_
      simp
    exact h.deriv

/-! ### Instances -/

/-- At the cutoff itself. -/
example : ∃ y, smoothCutoff 5 5 = .ok y ∧ Spec.FiniteAt (smoothCutoffEx 5) 5 y :=
  (C57_cutoff_finite 5 5 (by norm_num) (by norm_num)).1

example : Spec.RadialFn.Valid (.exponential .bernstein 0.9448630629184640 false false) := trivial
example : Spec.RadialFn.Valid (.reciprocal .chebyshev "damped" true) := by simp [Spec.RadialFn.Valid]
example : Spec.RadialFn.Interior 1e-7 6e-8 1 (.reciprocal .bernstein "shifted" false) := by
  refine ⟨by decide, fun m hm => ?_⟩
  have : m = 1 / 2 := by
    simp only [reciprocalMapping, if_pos] at hm
    have := Except.ok.inj hm
    rw [← this]; norm_num
  subst this
  constructor <;> norm_num

/-- `basis` with `sinc`, `smooth_cutoff` and `smooth_damping` at two zero vectors, and at a vector within the cutoff. -/
example : ∃ B : (Fin 2 → Fin 3 → ℝ) → Except Err (BasisResult (Fin 2)),
    (∀ r, B r = basis 1e-38 r 3 8 (fun n _ => .ok fun b => sincBasis (n b) 5) (defaultAngularFn 1e-38 (noFiles _) .success)
      (some fun n => .ok fun b => if n b < 5 then Real.exp (1 - 1 / (1 - n b / 5 * (n b / 5))) else 0) false false
      (some fun n => .ok fun b => smoothDamping (n b) 3) false) ∧
    ∃ e : ℕ → ℕ → Ex,
      (∃ res, B 0 = .ok res ∧ ∀ b p i f, Spec.FiniteAtVector (e i f) 0 ((res.out b).val p i f)) ∧
      ∃ V : (Fin 3 → ℝ) → ℝ, Spec.ExactAtVector (e 4 2) ![1, 0, 0] fun q => V fun k => q k := by
  let cut : Spec.CutoffFn → ℝ → ℝ := fun _ t => if t < 5 then Real.exp (1 - 1 / (1 - t / 5 * (t / 5))) else 0
  obtain ⟨e, h1, h2⟩ := C57_basis (ι := Fin 2) 1e-7 6e-8 1e-38 (by norm_num) (by norm_num) (by norm_num) (by norm_num)
    (noFiles _) (noFiles_valid _ _) .success 3 8 (by norm_num) false (.sinc 5)
    (by simp [Spec.RadialFn.Valid]) (some (.smooth 5)) (by simp [Spec.CutoffFn.cutoff]) (some 3) (by simp)
    (fun t => sincBasis t 5) (fun _ _ => rfl) cut (by
      rintro c hc t ht
      obtain rfl : _ = c := by simpa using hc
      have : t / 5 < 1 ↔ t < 5 := div_lt_one (by norm_num)
      simp only [Spec.CutoffFn.result, smoothCutoff, cutoffRescale, cut]
      norm_num
      split_ifs <;> first | rfl | tauto) _ (fun _ => rfl)
  refine ⟨_, fun _ => rfl, e, h1 0, ?_⟩
  choose res hres hval using h1
  have hl : Spec.length ![1, 0, 0] = 1 := by simp [Spec.length, Fin.sum_univ_three]
  refine ⟨fun w => ((res fun _ => w).out 0).val 0 4 2, h2 ![1, 0, 0] (fun h => by simpa using congrFun h 0) ?_ ?_ 4 2 (by norm_num)
    (fun w => ((res fun _ => w).out 0).val 0 4 2) fun w => ⟨_, hres _, fun b => ?_⟩⟩
  · rw [hl]; norm_num [Spec.RadialFn.Interior]
  · rw [hl]; simp [Spec.CutoffFn.cutoff]
  · have h0 := (hval (fun _ => w) b 0 4 2).1
    rw [(hval (fun _ => w) 0 0 4 2).1] at h0
    exact (Option.some.inj h0).symm

end E3x
