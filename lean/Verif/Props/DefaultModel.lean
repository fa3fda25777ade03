import Mathlib.Data.List.GetD
import Verif.Lemmas.SvrUpper
import Verif.Lemmas.SvrPoints
import Verif.Props.Options
import Verif.Props.Witness

/-!
# C84: the scores of the default fullband model

The support vector file that ships with the tool and that fullband comparisons use unless another one is named.  In exact arithmetic.
-/

namespace Visqol

open Finset

/-- Band similarities, as fullband comparisons report them. -/
def Bands (v : List ℝ) : Prop := v.length = 32 ∧ ∀ x ∈ v, -1 < x ∧ x ≤ 1

/-- No band of `v` is more similar than in `w`. -/
def NoBetter (v w : List ℝ) : Prop := v.length = w.length ∧ ∀ j, v.getD j 0 ≤ w.getD j 0

theorem getD_mem {v : List ℝ} {j : ℕ} (h : j < v.length) : v.getD j 0 ∈ v := by
  have : v.getD j 0 = v[j] := by simp [List.getD, h]
  rw [this]; exact List.getElem_mem h

theorem Bands.range {v : List ℝ} (h : Bands v) : ∀ j < 32, -1 ≤ v.getD j 0 ∧ v.getD j 0 ≤ 1 := fun j hj => by
  have := h.2 _ (getD_mem (h.1.symm ▸ hj)); exact ⟨this.1.le, this.2⟩

theorem replicate_at {n j : ℕ} (x : ℝ) (h : j < n) : (List.replicate n x).getD j 0 = x := by
  simp [List.getD, h]

/-- The quality that the mapper predicts from 32 bands is the clamped value of the model. -/
theorem default_predict {v : List ℝ} (hv : v.length = 32) :
    (QualityMapper.svr (defaultModel (F := ℝ))).predict v = .ok (max 1 (min 5 ((defaultSvr (F := ℝ)).value v))) := by
  have hr : resize (v.map Flt.toF32) 32 (0.0 : ℝ) = v := by
    unfold resize
    have h1 : v.map Flt.toF32 = v := (List.map_congr_left fun _ _ => rfl).trans (List.map_id v)
    rw [h1, List.take_of_length_le (by omega), hv]; simp
  show (svrPredict _ v >>= _) = _
  unfold svrPredict
  rw [if_neg (by show ¬ 32 < _; omega)]
  show ((expect (some (some ((defaultSvr (F := ℝ)).value (resize (v.map Flt.toF32) 32 0.0)))) >>= fun r => Except.ok (r.getD 0.0)) >>= _) = _
  rw [hr]
  simp only [expect, ok_bind, Option.getD_some]
  have h5 : (Flt.toOfScientific.ofScientific 50 true 1 : ℝ) = 5 := by simp only [real_sci]; norm_num
  have h1 : (Flt.toOfScientific.ofScientific 10 true 1 : ℝ) = 1 := by simp only [real_sci]; norm_num
  have := real_clamp ((defaultSvr (F := ℝ)).value v) 1 5 (by norm_num)
  rw [← h1, ← h5] at this
  rw [this, h1, h5]

/-- A clamped value inside the range. -/
theorem near_predict {v : List ℝ} {c ε lo hi : ℝ} (hv : v.length = 32) (h : |(defaultSvr (F := ℝ)).value v - c| ≤ ε)
    (h1 : lo ≤ c - ε) (h2 : c + ε ≤ hi) (h3 : 1 ≤ lo) (h4 : hi ≤ 5) :
    ∃ q, (QualityMapper.svr (defaultModel (F := ℝ))).predict v = .ok q ∧ lo ≤ q ∧ q ≤ hi := by
  have a := (abs_le.mp h).1
  have b := (abs_le.mp h).2
  refine ⟨_, default_predict hv, ?_, ?_⟩
  · exact le_max_of_le_right (le_min (by linarith) (by linarith))
  · exact max_le (by linarith) (min_le_of_right_le (by linarith))

/-- C84: perfect similarity in all bands is given a MOS of 4.7321, not 5. -/
theorem C84_perfect_bands : ∃ q, (QualityMapper.svr (defaultModel (F := ℝ))).predict (List.replicate 32 1) = .ok q ∧
    47321011 / 10000000 ≤ q ∧ q ≤ 47321014 / 10000000 := by
  have hw : ∀ j < 32, (List.replicate 32 (1 : ℝ)).getD j 0 = 1 - (([] : List ℕ).getD j 0 : ℝ) / 10 ^ 11 := by
    intro j hj
    rw [replicate_at _ hj]; simp
  refine near_predict (by simp) (Svr.value_near (by simp) hw Svr.sq_ok Svr.kern_ok Svr.perfect_s Svr.perfect_a Svr.perfect_b) ?_ ?_ ?_ ?_ <;> norm_num

/-- C84: a signal compared with itself by a fullband manager with the default model scores 4.7321. -/
theorem C84_perfect {p : Profile} {world : World ℝ} {k : ℕ} {path : String} {m m' : Manager ℝ} {ref : AudioSignal ℝ}
    {res : SimilarityResult ℝ} (hm : Manager.new world 32 (.fullband path) k = .ok m) (hdef : world.svr path = some defaultModel)
    (hlen : ref.data.length + 30 * k < 2147483647) (h : m.computeResults p ref ref = .ok (m', res)) :
    47321011 / 10000000 ≤ res.moslqo ∧ res.moslqo ≤ 47321014 / 10000000 := by
  obtain ⟨h1, h2, h3, _, h5⟩ := new_mapper hm
  obtain ⟨model, h6, h7⟩ := h5 path rfl
  rw [hdef] at h6
  cases h6
  obtain ⟨_, f1, f2, _⟩ := C11_perfect (.inr h3) (h2 ▸ hlen) h
  have hn := (C05_shapes h).1
  have hf : res.fvnsim = List.replicate 32 1 := List.eq_replicate_iff.mpr ⟨hn.trans h1, f1⟩
  have hx := (C02_extremes h).2 (by
    rw [f2]; simp only [real_lt, real_sci]; norm_num)
  obtain ⟨q, q1, q2, q3⟩ := C84_perfect_bands
  rw [h7, hf, q1] at hx
  cases hx
  exact ⟨q2, q3⟩

/-- C84: no band similarities reach a MOS above 4.93. -/
theorem C84_ceiling_bands {v : List ℝ} (hv : Bands v) : ∃ q, (QualityMapper.svr (defaultModel (F := ℝ))).predict v = .ok q ∧
    1 ≤ q ∧ q ≤ 493 / 100 := by
  refine ⟨_, default_predict hv.1, le_max_left _ _, max_le (by norm_num) (min_le_of_right_le ?_)⟩
  exact Svr.value_le hv.1 hv.range

/-- C84: no fullband comparison with the default model, of whatever signals and after whatever history, reports a MOS above 4.93. -/
theorem C84_ceiling {p : Profile} {world : World ℝ} {k : ℕ} {path : String} {m₀ m m' : Manager ℝ} {ref deg : AudioSignal ℝ}
    {res : SimilarityResult ℝ} (hm : Manager.new world 32 (.fullband path) k = .ok m₀) (hdef : world.svr path = some defaultModel)
    (ha : After p m₀ m) (h : m.computeResults p ref deg = .ok (m', res)) : res.moslqo ≤ 493 / 100 := by
  obtain ⟨h1, _, _, _, h5⟩ := new_mapper hm
  obtain ⟨model, h6, h7⟩ := h5 path rfl
  rw [hdef] at h6
  cases h6
  have hs := ha.sim
  obtain ⟨c1, c2⟩ := C02_extremes h
  cases hl : Flt.lt res.vnsim 0.15 with
  | true =>
    rw [c1 hl]; simp only [real_sci]; norm_num
  | false =>
    have hx := c2 hl
    rw [hs.2.2.2.1.trans h7] at hx
    obtain ⟨q, q1, _, q3⟩ := C84_ceiling_bands (v := res.fvnsim) ⟨(C05_shapes h).1.trans (hs.1.trans h1), (C07_run_bounds h).2.1⟩
    rw [q1] at hx
    cases hx
    exact q3

/-- Bands at 0 or 1: `a` times `x`, then `b` times `y`. -/
theorem two_parts {a b j : ℕ} (x y : ℝ) (h : j < a + b) : (List.replicate a x ++ List.replicate b y).getD j 0 = if j < a then x else y := by
  by_cases hj : j < a
  · rw [if_pos hj, List.getD_append _ _ _ _ (by simpa using hj), replicate_at _ hj]
  · rw [if_neg hj, List.getD_append_right _ _ _ _ (by simpa using hj), List.length_replicate, replicate_at _ (by omega)]

/-- C84: more similar bands can score less.  With the third band at one half and all others perfect the MOS is higher than with all
bands perfect. -/
theorem C84_not_monotone : ∃ v, Bands v ∧ NoBetter v (List.replicate 32 1) ∧ v.getD 2 0 = 1 / 2 ∧
    ∃ a b, (QualityMapper.svr (defaultModel (F := ℝ))).predict v = .ok a ∧
      (QualityMapper.svr (defaultModel (F := ℝ))).predict (List.replicate 32 1) = .ok b ∧ b + 3 / 1000 ≤ a := by
  obtain ⟨b, b1, _, b3⟩ := C84_perfect_bands
  have hw : ∀ j < 32, ([1, 1, 1 / 2] ++ List.replicate 29 (1 : ℝ)).getD j 0 = 1 - (Svr.thirdW.getD j 0 : ℝ) / 10 ^ 11 := by
    intro j hj
    interval_cases j <;> norm_num [Svr.thirdW]
  obtain ⟨a, a1, a2, _⟩ := near_predict (lo := 4735118 / 1000000) (hi := 5) (by simp)
    (Svr.value_near (by simp) hw Svr.third_d Svr.third_k Svr.third_s Svr.third_a Svr.third_b) (by norm_num) (by norm_num) (by norm_num) (by norm_num)
  refine ⟨_, ⟨by simp, ?_⟩, ⟨by simp, ?_⟩, by simp, a, b, a1, b1, by linarith⟩
  · intro x hx
    simp only [List.mem_append, List.mem_cons, List.not_mem_nil, or_false, List.mem_replicate] at hx
    rcases hx with (rfl | rfl | rfl) | ⟨_, rfl⟩ <;> norm_num
  · intro j
    by_cases hj : j < 32
    · rw [replicate_at _ hj]
      interval_cases j <;> norm_num
    · have h1 : ([1, 1, 1 / 2] ++ List.replicate 29 (1 : ℝ)).length ≤ j := by
        rw [List.length_append, List.length_replicate]; simp; omega
      have h2 : (List.replicate 32 (1 : ℝ)).length ≤ j := by rw [List.length_replicate]; omega
      rw [List.getD_eq_getElem?_getD, List.getD_eq_getElem?_getD, List.getElem?_eq_none h1, List.getElem?_eq_none h2]

/-- C84: what decides are the upper eight of the 32 bands: perfect there and no similarity at all in the lower 24 bands scores above 4,
perfect in the lower 24 bands and no similarity in the upper eight scores below 1.6. -/
theorem C84_high_bands :
    (∃ q, (QualityMapper.svr (defaultModel (F := ℝ))).predict (List.replicate 24 0 ++ List.replicate 8 1) = .ok q ∧ 4 < q) ∧
    ∃ q, (QualityMapper.svr (defaultModel (F := ℝ))).predict (List.replicate 24 1 ++ List.replicate 8 0) = .ok q ∧ q < 16 / 10 := by
  constructor
  · have hw : ∀ j < 32, (List.replicate 24 0 ++ List.replicate 8 (1 : ℝ)).getD j 0 = 1 - (Svr.highW.getD j 0 : ℝ) / 10 ^ 11 := by
      intro j hj
      rw [two_parts _ _ hj]
      interval_cases j <;> norm_num [Svr.highW]
    obtain ⟨a, a1, a2, _⟩ := near_predict (lo := 4095 / 1000) (hi := 5) (by simp)
      (Svr.value_near (by simp) hw Svr.high_d Svr.high_k Svr.high_s Svr.high_a Svr.high_b) (by norm_num) (by norm_num) (by norm_num) (by norm_num)
    exact ⟨a, a1, by linarith⟩
  · have hw : ∀ j < 32, (List.replicate 24 (1 : ℝ) ++ List.replicate 8 0).getD j 0 = 1 - (Svr.lowW.getD j 0 : ℝ) / 10 ^ 11 := by
      intro j hj
      rw [two_parts _ _ hj]
      interval_cases j <;> norm_num [Svr.lowW]
    obtain ⟨a, a1, _, a3⟩ := near_predict (lo := 1) (hi := 1513 / 1000) (by simp)
      (Svr.value_near (by simp) hw Svr.low_d Svr.low_k Svr.low_s Svr.low_a Svr.low_b) (by norm_num) (by norm_num) (by norm_num) (by norm_num)
    exact ⟨a, a1, by linarith⟩

/-- C84: at the threshold below which every comparison is given 1.0 the model still predicts more than 1.85. -/
theorem C84_threshold : ∃ q, (QualityMapper.svr (defaultModel (F := ℝ))).predict (List.replicate 32 (15 / 100)) = .ok q ∧ 185 / 100 < q := by
  have hw : ∀ j < 32, (List.replicate 32 (15 / 100 : ℝ)).getD j 0 = 1 - (Svr.leastW.getD j 0 : ℝ) / 10 ^ 11 := by
    intro j hj
    rw [replicate_at _ hj]
    interval_cases j <;> norm_num [Svr.leastW]
  obtain ⟨a, a1, a2, _⟩ := near_predict (lo := 1857 / 1000) (hi := 5) (by simp)
    (Svr.value_near (by simp) hw Svr.least_d Svr.least_k Svr.least_s Svr.least_a Svr.least_b) (by norm_num) (by norm_num) (by norm_num) (by norm_num)
  exact ⟨a, a1, by linarith⟩

theorem exp_neg_lip {a b : ℝ} (ha : 0 ≤ a) (hb : 0 ≤ b) : |Real.exp (-a) - Real.exp (-b)| ≤ |a - b| := by
  wlog h : a ≤ b generalizing a b
  · have := this hb ha (le_of_not_ge h)
    rwa [abs_sub_comm, abs_sub_comm a b]
  have h1 := Real.add_one_le_exp (a - b)
  have h2 : Real.exp (-b) = Real.exp (-a) * Real.exp (a - b) := by rw [← Real.exp_add]; congr 1; ring
  have h3 : Real.exp (-a) ≤ 1 := Real.exp_le_one_iff.mpr (by linarith)
  have h4 : Real.exp (-b) ≤ Real.exp (-a) := Real.exp_le_exp.mpr (by linarith)
  rw [abs_of_nonneg (by linarith), abs_of_nonpos (by linarith), h2]
  have h5 := Real.exp_pos (-a)
  nlinarith

theorem cols_small : Svr.cols.all (fun c => c.all (fun x => decide (x ≤ 2 * 10 ^ 11))) = true := by decide +kernel

theorem τ_small (i : ℕ) {j : ℕ} (hj : j < 32) : Svr.τ i j ≤ 2 := by
  have h : (Svr.cols.getD j []) ∈ Svr.cols := by
    have h1 : j < Svr.cols.length := by rw [Svr.cols_len]; exact hj
    rw [List.getD_eq_getElem _ _ h1]
    exact List.getElem_mem h1
  have h2 : (Svr.cols.getD j []).getD i 0 ≤ 2 * 10 ^ 11 := Svr.getD_all (List.all_eq_true.mp cols_small _ h) i
  have h3 : ((Svr.cols.getD j []).getD i 0 : ℝ) ≤ ((2 * 10 ^ 11 : ℕ) : ℝ) := Nat.cast_le.mpr h2
  unfold Svr.τ
  rw [div_le_iff₀ (by norm_num)]
  refine h3.trans (by norm_num)

theorem value_lip {v w : List ℝ} {δ : ℝ} (hv : Bands v) (hw : Bands w) (hd : ∀ j < 32, |v.getD j 0 - w.getD j 0| ≤ δ) :
    |(defaultSvr (F := ℝ)).value v - (defaultSvr (F := ℝ)).value w| ≤ 401 * δ := by
  have hδ : 0 ≤ δ := (abs_nonneg _).trans (hd 0 (by norm_num))
  rw [Svr.value_eq hv.1, Svr.value_eq hw.1, add_sub_add_right_eq_sub, ← sum_sub_distrib]
  have hterm : ∀ i ∈ Finset.range 317,
      |(Svr.P i - Svr.N i) * Real.exp (-(1 / 100 * ∑ j ∈ Finset.range 32, (Svr.τ i j - (1 - v.getD j 0)) ^ 2)) -
        (Svr.P i - Svr.N i) * Real.exp (-(1 / 100 * ∑ j ∈ Finset.range 32, (Svr.τ i j - (1 - w.getD j 0)) ^ 2))| ≤
      (Svr.P i + Svr.N i) * (128 / 100 * δ) := by
    intro i _
    rw [← mul_sub, abs_mul]
    have h1 : |Svr.P i - Svr.N i| ≤ Svr.P i + Svr.N i := by
      have := Svr.P_nonneg i; have := Svr.N_nonneg i
      rw [abs_le]; constructor <;> linarith
    refine mul_le_mul h1 ?_ (abs_nonneg _) (add_nonneg (Svr.P_nonneg i) (Svr.N_nonneg i))
    refine (exp_neg_lip (mul_nonneg (by norm_num) (sum_nonneg fun j _ => sq_nonneg _))
      (mul_nonneg (by norm_num) (sum_nonneg fun j _ => sq_nonneg _))).trans ?_
    rw [← mul_sub, ← sum_sub_distrib, abs_mul, abs_of_pos (by norm_num : (0 : ℝ) < 1 / 100)]
    have h2 : |∑ j ∈ Finset.range 32, ((Svr.τ i j - (1 - v.getD j 0)) ^ 2 - (Svr.τ i j - (1 - w.getD j 0)) ^ 2)| ≤
        ∑ _j ∈ Finset.range 32, 4 * δ := by
      refine (abs_sum_le_sum_abs _ _).trans (sum_le_sum fun j hj => ?_)
      have hj := Finset.mem_range.mp hj
      have e : (Svr.τ i j - (1 - v.getD j 0)) ^ 2 - (Svr.τ i j - (1 - w.getD j 0)) ^ 2 =
        (2 * Svr.τ i j - 2 + v.getD j 0 + w.getD j 0) * (v.getD j 0 - w.getD j 0) := by ring
      rw [e, abs_mul]
      have t0 := Svr.τ_nonneg i j
      have t2 := τ_small i hj
      obtain ⟨v0, v1⟩ := hv.range j hj
      obtain ⟨w0, w1⟩ := hw.range j hj
      exact mul_le_mul (abs_le.mpr ⟨by linarith, by linarith⟩) (hd j hj) (abs_nonneg _) (by norm_num)
    rw [Finset.sum_const, Finset.card_range, nsmul_eq_mul] at h2
    push_cast at h2
    linarith
  refine (abs_sum_le_sum_abs _ _).trans ((sum_le_sum hterm).trans ?_)
  rw [← sum_mul]
  have h2 := mul_le_mul_of_nonneg_right Svr.coef_sum (by linarith : 0 ≤ 128 / 100 * δ)
  linarith

/-- C84: the score is stable.  If no band of two similarity vectors differs by more than `δ`, the scores differ by at most `401 δ`. -/
theorem C84_stable {v w : List ℝ} {δ : ℝ} (hv : Bands v) (hw : Bands w) (hd : ∀ j < 32, |v.getD j 0 - w.getD j 0| ≤ δ) :
    ∃ a b, (QualityMapper.svr (defaultModel (F := ℝ))).predict v = .ok a ∧
      (QualityMapper.svr (defaultModel (F := ℝ))).predict w = .ok b ∧ |a - b| ≤ 401 * δ := by
  refine ⟨_, _, default_predict hv.1, default_predict hw.1, ?_⟩
  refine ((abs_max_sub_max_le_max _ _ _ _).trans ?_).trans (value_lip hv hw hd)
  refine max_le (by simp) ((abs_min_sub_min_le_max _ _ _ _).trans (max_le (by simp) le_rfl))

/-! ## Comparisons that use the default model -/

/-- A directory with two recordings and the default model under its usual name. -/
noncomputable def shippedWorld : World ℝ where
  wav path := if path = "ref.wav" then steadyFile 40000 20000 else steadyFile 41000 9000
  svr path := if path = "./model/libsvm_nu_svr_model.txt" then some defaultModel else none

/-- The hypotheses of `C84_perfect` and `C84_ceiling`: a manager for the default model, a file compared with itself and with another
one. -/
example (p : Profile) : ∃ m m' m'' res res', Manager.new shippedWorld 32 (.fullband "./model/libsvm_nu_svr_model.txt") 60 = .ok m ∧
    m.computeResults p (steadySignal 40000 20000) (steadySignal 40000 20000) = .ok (m', res) ∧
    m.computeResults p (steadySignal 40000 20000) (steadySignal 41000 9000) = .ok (m'', res') ∧
    After p m m ∧ 4732 / 1000 < res.moslqo ∧ res'.moslqo ≤ 493 / 100 := by
  have hs : shippedWorld.svr "./model/libsvm_nu_svr_model.txt" = some defaultModel := by simp only [shippedWorld, if_true]
  have hm : Manager.new shippedWorld 32 (.fullband "./model/libsvm_nu_svr_model.txt") 60 =
      .ok ⟨32, 60, .image 20, .svr defaultModel, FilterBank.new 32 50.0⟩ := by
    unfold Manager.new
    simp only [hs, expect, ok_bind]
  have key : ∀ b y, 40000 ≤ b → b ≤ 90000 → ∃ m' res,
      (⟨32, 60, .image 20, .svr defaultModel, FilterBank.new 32 50.0⟩ : Manager ℝ).computeResults p (steadySignal 40000 20000)
        (steadySignal b y) = .ok (m', res) := by
    intro b y hb hb2
    refine C63_fullband_succeeds p _ rfl (by norm_num) (fun v hv => ⟨_, default_predict hv⟩) rfl ?_ ?_ ?_ ?_ ?_ ?_ ?_ ?_ ?_
    all_goals simp only [steady_length, steady_rate, window_16k, columns_16k, drift_16k]
    all_goals omega
  obtain ⟨m', res, h⟩ := key 40000 20000 (by norm_num) (by norm_num)
  obtain ⟨m'', res', h'⟩ := key 41000 9000 (by norm_num) (by norm_num)
  have h1 := (C84_perfect hm hs (by rw [steady_length]; norm_num) h).1
  exact ⟨_, m', m'', res, res', hm, h, h', .fresh, by linarith, C84_ceiling hm hs .fresh h'⟩

/-- The hypotheses of `C84_stable` and `C84_ceiling_bands`. -/
example : Bands (List.replicate 32 1) ∧ Bands (List.replicate 32 (999 / 1000)) ∧
    ∀ j < 32, |(List.replicate 32 (1 : ℝ)).getD j 0 - (List.replicate 32 (999 / 1000 : ℝ)).getD j 0| ≤ 1 / 1000 := by
  refine ⟨⟨by simp, fun x hx => ?_⟩, ⟨by simp, fun x hx => ?_⟩, fun j hj => ?_⟩
  · rw [List.eq_of_mem_replicate hx]; norm_num
  · rw [List.eq_of_mem_replicate hx]; norm_num
  · rw [replicate_at _ hj, replicate_at _ hj]; norm_num [abs_le]

end Visqol
