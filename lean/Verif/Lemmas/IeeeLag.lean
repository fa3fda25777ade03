import Verif.Lemmas.IeeeNsim
import Verif.Lemmas.IeeePrepare
import Verif.Lemmas.IeeeTime
import Verif.Lemmas.Envelope
import Verif.Props.Align

/-! # Floating point: the delay between two ordinary signals is always found -/

set_option linter.unusedSectionVars false

namespace Visqol
open Ieee

section
variable {F : Type} [Flt F] [Ieee F]

/-- Both parts are finite and at most `2^n` in absolute value. -/
def CPw (n : ℕ) (c : Cpx F) : Prop := Pw n c.re ∧ Pw n c.im

theorem CPw.mono {c : Cpx F} {m n : ℕ} (h : CPw m c) (hmn : m ≤ n) : CPw n c := ⟨h.1.mono hmn, h.2.mono hmn⟩

theorem CPw.cbound {c : Cpx F} {n : ℕ} (h : CPw n c) : CBound (2 ^ n) c := h

theorem CPw.of_cbound {c : Cpx F} {n : ℕ} {B : ℝ} (h : CBound B c) (hB : B ≤ 2 ^ n) : CPw n c := by
  obtain ⟨⟨x, h1, h2⟩, y, h3, h4⟩ := h
  exact ⟨⟨x, h1, h2.trans hB⟩, y, h3, h4.trans hB⟩

theorem CPw.ofRe {a : F} {n : ℕ} (h : Pw n a) : CPw n (Cpx.ofRe a) := ⟨h, Pw.zero⟩

theorem CPw.smul {c : Cpx F} {s : F} {m n : ℕ} (h : CPw m c) (hs : Pw n s) (hn : m + n ≤ 990) : CPw (m + n + 1) (c.smul s) :=
  ⟨h.1.mul hs hn, h.2.mul hs hn⟩

theorem CPw.mul {a b : Cpx F} {m n : ℕ} (ha : CPw m a) (hb : CPw n b) (hn : m + n ≤ 980) : CPw (m + n + 3) (a.mul b) := by
  have h1 := ha.1.mul hb.1 (by omega)
  have h2 := ha.2.mul hb.2 (by omega)
  have h3 := ha.1.mul hb.2 (by omega)
  have h4 := ha.2.mul hb.1 (by omega)
  exact ⟨h1.sub h2 (by omega), h3.add h4 (by omega)⟩

theorem CPw.conj {a : Cpx F} {n : ℕ} (ha : CPw n a) : CPw n a.conj := ⟨ha.1, ha.2.neg⟩

theorem CPw.norm [Libm F] {a : Cpx F} {n : ℕ} (ha : CPw n a) (hn : n ≤ 800) : Pw (n + 2) a.norm := by
  obtain ⟨⟨x, hx, hx'⟩, y, hy, hy'⟩ := ha
  have hm : (2 : ℝ) ^ n ≤ 2 ^ 900 := two_pow_mono (by omega)
  obtain ⟨z, hz, hz'⟩ := Libm.hypot_acc a.re a.im x y hx hy (hx'.trans hm) (hy'.trans hm)
  refine ⟨z, hz, ?_⟩
  have h1 : (1 : ℝ) ≤ 2 ^ n := one_le_pow₀ (by norm_num)
  have e0 : (1 : ℝ) / 2 ^ 900 ≤ 1 := by
    rw [div_le_one (by positivity)]; exact one_le_pow₀ (by norm_num)
  clear hm
  generalize (1 : ℝ) / 2 ^ 900 = e at *
  have hs0 : 0 ≤ Real.sqrt (x ^ 2 + y ^ 2) := Real.sqrt_nonneg _
  have hs : Real.sqrt (x ^ 2 + y ^ 2) ≤ 3 / 2 * 2 ^ n := by
    apply Real.sqrt_le_iff.mpr ⟨by positivity, ?_⟩
    have h2 : x ^ 2 ≤ (2 ^ n) ^ 2 := sq_le_sq' (by linarith [(abs_le.mp hx').1]) (abs_le.mp hx').2
    have h3 : y ^ 2 ≤ (2 ^ n) ^ 2 := sq_le_sq' (by linarith [(abs_le.mp hy').1]) (abs_le.mp hy').2
    nlinarith
  generalize Real.sqrt (x ^ 2 + y ^ 2) = s at *
  have h4 : |z| ≤ |z - s| + |s| := by simpa using abs_add_le (z - s) s
  rw [abs_of_nonneg hs0] at h4
  have h5 : s / 2 ^ 40 ≤ s / 4 := div_le_div_of_nonneg_left hs0 (by norm_num) (by norm_num)
  have h6 : (2 : ℝ) ^ (n + 2) = 4 * 2 ^ n := by rw [pow_add]; ring
  rw [h6]
  linarith

theorem mem_resize {l : List F} {n : ℕ} {z a : F} (h : a ∈ resize l n z) : a ∈ l ∨ a = z := by
  unfold resize at h
  rcases List.mem_append.mp h with h | h
  · exact .inl (List.mem_of_mem_take h)
  · exact .inr (List.eq_of_mem_replicate h)

variable [RustFft F] [BoundedFft F]

theorem fft_size_bound {k n len : ℕ} (h : len ≤ 2 ^ k) : (4 : ℝ) * len * 2 ^ n ≤ 2 ^ (n + k + 2) := by
  have : (len : ℝ) ≤ 2 ^ k := by exact_mod_cast h
  have e : (2 : ℝ) ^ (n + k + 2) = 4 * 2 ^ k * 2 ^ n := by rw [pow_add, pow_add]; ring
  rw [e]
  exact mul_le_mul_of_nonneg_right (by linarith) (by positivity)

theorem forward1d_pw {m : FftManager} {s : List F} {n k : ℕ} (hs : ∀ a ∈ s, Pw n a) (hk : m.fftSize ≤ 2 ^ k) (hk40 : k ≤ 40)
    (hn : n ≤ 800) : ∀ c ∈ forward1d m s, CPw (n + k + 2) c := by
  intro c hc
  have hl : ((resize s m.fftSize 0.0).map Cpx.ofRe).length = m.fftSize := by simp [resize_length]
  have h40 : 2 ^ k ≤ 2 ^ 40 := Nat.pow_le_pow_right (by norm_num) hk40
  have := BoundedFft.forward_bound ((resize s m.fftSize 0.0).map Cpx.ofRe) (2 ^ n) (one_le_pow₀ (by norm_num))
    (two_pow_mono hn) (by rw [hl]; exact hk.trans h40) (by
      intro c hc
      obtain ⟨a, ha, rfl⟩ := List.mem_map.mp hc
      rcases mem_resize ha with ha | rfl
      · exact (CPw.ofRe (hs a ha)).cbound
      · exact (CPw.ofRe Pw.zero).cbound) c hc
  rw [hl] at this
  exact .of_cbound this (fft_size_bound hk)

theorem inverse1d_pw {m : FftManager} {freq : List (Cpx F)} {n k : ℕ} (hs : ∀ c ∈ freq, CPw n c) (hl : freq.length = m.fftSize)
    (hk : m.fftSize ≤ 2 ^ k) (h1 : 1 ≤ m.fftSize) (hk40 : k ≤ 40) (hn : n ≤ 800) {t : List F} (ht : inverse1d m freq = .ok t) :
    ∀ a ∈ t, Pw (n + k + 4) a := by
  intro a ha
  have h40 : 2 ^ k ≤ 2 ^ 40 := Nat.pow_le_pow_right (by norm_num) hk40
  unfold inverse1d at ht
  rw [if_neg (by simp [hl])] at ht
  dsimp only at ht
  split at ht
  · cases ht
    obtain ⟨c, hc, rfl⟩ := List.mem_map.mp (List.mem_of_mem_take ha)
    have := BoundedFft.inverse_bound freq (2 ^ n) (one_le_pow₀ (by norm_num)) (two_pow_mono hn) (by rw [hl]; exact hk.trans h40)
      (fun c hc => (hs c hc).cbound) c hc
    rw [hl] at this
    have h := CPw.of_cbound this (fft_size_bound hk)
    have hsc : Pw 1 ((1.0 : F) / Flt.ofNat m.fftSize) := Pw.one.div_nat h1 ((hk.trans h40).trans (by norm_num)) (by omega)
    exact (h.1.mul hsc (by omega)).mono (by omega)
  · cases ht

theorem fftManager_new_bound {p : Profile} {n k : ℕ} (h1 : 1 ≤ n) (h2 : n ≤ 2 ^ k) (hk5 : 5 ≤ k) (hk : k ≤ 40) :
    ∃ m, FftManager.new p n = .ok m ∧ m.samplesPerChannel = n ∧ n ≤ m.fftSize ∧ 32 ≤ m.fftSize ∧ m.fftSize ≤ 2 ^ k := by
  have h40 : 2 ^ k ≤ 2 ^ 40 := Nat.pow_le_pow_right (by norm_num) hk
  have h32 : 2 ^ 5 ≤ 2 ^ k := Nat.pow_le_pow_right (by norm_num) hk5
  obtain ⟨r, hr, h3, h4⟩ := C41_next_pow_two_bounds p n h1 (by omega)
  have := h4 k h2
  refine ⟨⟨max r 32, n⟩, ?_, rfl, ?_, ?_, ?_⟩
  · unfold FftManager.new; rw [hr]; rfl
  · show n ≤ max r 32; omega
  · show 32 ≤ max r 32; omega
  · show max r 32 ≤ 2 ^ k; omega

/-- The envelope of an ordinary signal is finite. -/
theorem upperEnv_pw [Libm F] {p : Profile} {s : List F} {n : ℕ} (hs : ∀ a ∈ s, Pw n a) (h1 : s ≠ []) (h2 : s.length ≤ 2 ^ 31)
    (hn : n ≤ 300) : ∃ env, calculateUpperEnv p s = .ok (some env) ∧ env.length = s.length ∧ ∀ a ∈ env, Pw (n + 120) a := by
  have hl : 1 ≤ s.length := List.length_pos_iff.mpr h1
  obtain ⟨env, he, hel⟩ := calculateUpperEnv_total (p := p) h1 (h2.trans (by norm_num))
  refine ⟨env, he, hel, ?_⟩
  unfold calculateUpperEnv meanOpt at he
  rw [if_neg h1] at he
  dsimp only at he
  have hsum : Pw (n + 31 + 1) (Flt.sum s) := Pw.sum hs h2 (by omega) (by omega)
  have hmean : Pw (n + 33) (Flt.sum s / Flt.ofNat s.length : F) := hsum.div_nat hl (h2.trans (by norm_num)) (by omega)
  generalize (Flt.sum s / Flt.ofNat s.length : F) = mean at *
  obtain ⟨h, hh, he⟩ := bind_ok he
  cases he
  obtain ⟨m, hm, hsp, hle, h32, hup⟩ := fftManager_new_bound (p := p) hl h2 (by omega) (by omega)
  unfold calculateHilbert at hh
  rw [List.length_map, hm] at hh
  simp only [ok_bind, forward1d_length] at hh
  rw [hilbertScaling_eq hl hle (by omega)] at hh
  simp only [ok_bind] at hh
  obtain ⟨t, ht, hh⟩ := bind_ok hh
  cases hh
  have hc : ∀ a ∈ s.map (· - mean), Pw (n + 35) a := by
    intro a ha
    obtain ⟨b, hb, rfl⟩ := List.mem_map.mp ha
    exact ((hs b hb).mono (by omega)).sub hmean (by omega)
  have hf := forward1d_pw hc hup (by omega) (by omega)
  have hlen : (List.zipWith Cpx.smul (forward1d m (s.map (· - mean)))
      ((List.range m.fftSize).map (hilbertWeight (F := F) s.length m.fftSize))).length = m.fftSize := by simp [forward1d_length]
  have hz : ∀ c ∈ List.zipWith Cpx.smul (forward1d m (s.map (· - mean)))
      ((List.range m.fftSize).map (hilbertWeight (F := F) s.length m.fftSize)), CPw (n + 70) c := by
    intro c hc
    obtain ⟨i, hi, rfl⟩ := List.getElem_of_mem hc
    rw [List.getElem_zipWith, List.getElem_map]
    have hw : ∀ a b c, Pw 1 (hilbertWeight (F := F) a b c) := by
      intro a b c
      have h1 : Pw 1 (1.0 : F) := Pw.one.mono (by omega)
      have h2 : Pw 1 (2.0 : F) := Pw.two
      have h0 : Pw 1 (0.0 : F) := Pw.zero
      unfold hilbertWeight
      split_ifs <;> assumption
    exact ((hf _ (List.getElem_mem _)).smul (hw _ _ _) (by omega)).mono (by omega)
  have hi := inverse1d_pw hz hlen hup (by omega) (by omega) (by omega) ht
  intro a ha
  obtain ⟨b, hb, rfl⟩ := List.mem_map.mp ha
  obtain ⟨c, hc, rfl⟩ := List.mem_map.mp hb
  obtain ⟨x, hx, rfl⟩ := List.mem_map.mp hc
  have h2 := (CPw.ofRe (hi x hx)).smul (n := 1) Pw.two (by omega)
  have h3 : Pw (n + 107) (0.000001 : F) :=
    (Pw.lit (m := 1) (e := 6) (n := 0) (by norm_num) (by omega)).mono (by omega)
  have h4 : CPw (n + 109) (((Cpx.ofRe x).smul 2.0).ssub (0.000001 : F)) :=
    ⟨(h2.1.mono (n := n + 107) (by omega)).sub h3 (by omega), h2.2.mono (by omega)⟩
  have h5 := (h4.norm (by omega)).mono (n := n + 118) (by omega)
  exact h5.add (hmean.mono (by omega)) (by omega)

omit [RustFft F] [BoundedFft F] in
/-- The exponent computed by `frexp` may be off by one from the exact one; it is never too small to hold the signal. -/
theorem frexpExp_bound [Libm F] {L : ℕ} (h1 : 2 ≤ L) (h2 : L ≤ 2 ^ 33) :
    ∃ e : ℕ, frexpExp (Flt.ofNat L : F) = e ∧ e ≤ 34 ∧ 4 * L < 5 * 2 ^ e := by
  have hL : Is (Flt.ofNat L : F) L := val_nat (h2.trans (by norm_num))
  have hLpos : (2 : ℝ) ≤ L := by exact_mod_cast h1
  unfold frexpExp
  rw [Is.eq val_0 hL]
  have hne : ¬ (0 : ℝ) = L := by linarith
  simp only [hne, decide_false, Bool.false_eq_true, if_false]
  have ha : Is (Flt.abs (Flt.ofNat L : F)) L := by
    have := hL.abs
    rwa [abs_of_nonneg (by linarith)] at this
  have hL33 : (L : ℝ) ≤ 2 ^ 33 := by exact_mod_cast h2
  obtain ⟨y, hy, hy'⟩ := Libm.log2_acc _ _ ha (by linarith) (hL33.trans (by norm_num))
  have hlo : 1 ≤ Real.logb 2 L := by
    rw [Real.le_logb_iff_rpow_le (by norm_num) (by linarith)]; simpa using hLpos
  have hhi : Real.logb 2 L ≤ 33 := by
    rw [Real.logb_le_iff_le_rpow (by norm_num) (by linarith)]
    exact_mod_cast hL33
  have hy1 := (abs_le.mp hy').1
  have hy2 := (abs_le.mp hy').2
  have hf1 : (0 : ℤ) ≤ ⌊y⌋ := Int.floor_nonneg.mpr (by linarith)
  have hf2 : ⌊y⌋ ≤ 33 := by
    have : ⌊y⌋ < 34 := Int.floor_lt.mpr (by push_cast; linarith)
    omega
  have hfl : Is (Flt.floor (Flt.log2 (Flt.abs (Flt.ofNat L : F)))) (⌊y⌋ : ℝ) := by
    show val _ = _
    rw [Libm.floor_val _ _ hy, rnd_int F (by rw [abs_of_nonneg hf1]; omega)]
  have hadd : val (Flt.floor (Flt.log2 (Flt.abs (Flt.ofNat L : F))) + (1.0 : F)) = .fin ((⌊y⌋ + 1 : ℤ) : ℝ) := by
    rw [hfl.add val_1]
    rw [← rnd_int F (k := ⌊y⌋ + 1) (by rw [abs_of_nonneg (by omega)]; omega)]
    push_cast; rfl
  rw [Libm.toI32_val _ _ hadd, realToInt_intCast (by omega) (by omega)]
  refine ⟨(⌊y⌋ + 1).toNat, by omega, by omega, ?_⟩
  have hlt : Real.logb 2 L < (⌊y⌋ : ℝ) + 1 + 1 / 4 := by
    have := Int.lt_floor_add_one y
    linarith
  have h3 : (L : ℝ) < (2 : ℝ) ^ ((⌊y⌋ : ℝ) + 1 + 1 / 4) := (Real.logb_lt_iff_lt_rpow (by norm_num) (by linarith)).mp hlt
  rw [Real.rpow_add (by norm_num)] at h3
  have h4 : (2 : ℝ) ^ ((1 : ℝ) / 4) ≤ 5 / 4 := by
    rw [show (2 : ℝ) ^ ((1 : ℝ) / 4) = (2 : ℝ) ^ ((4 : ℕ) : ℝ)⁻¹ by norm_num]
    rw [Real.rpow_inv_le_iff_of_pos (by norm_num) (by norm_num) (by norm_num), Real.rpow_natCast]
    norm_num
  have h5 : (2 : ℝ) ^ ((⌊y⌋ : ℝ) + 1) = 2 ^ (⌊y⌋ + 1).toNat := by
    rw [← Real.rpow_natCast]
    congr 1
    have : (((⌊y⌋ + 1).toNat : ℤ) : ℝ) = ((⌊y⌋ + 1 : ℤ) : ℝ) := by rw [Int.toNat_of_nonneg (by omega)]
    push_cast at this
    rw [← this]
  rw [h5] at h3
  have h6 : (0 : ℝ) < 2 ^ (⌊y⌋ + 1).toNat := by positivity
  have h7 : (4 * L : ℝ) < 5 * 2 ^ (⌊y⌋ + 1).toNat := by nlinarith
  exact_mod_cast h7

/-- The largest of finite values is found and is one of them. -/
theorem maxByAbs_fin {l : List F} (hl : l ≠ []) (h : ∀ a ∈ l, ∃ x, Is a x) : ∃ m ∈ l, maxByAbs l = .ok (some m) := by
  obtain ⟨a, t, rfl⟩ := List.exists_cons_of_ne_nil hl
  have key : ∀ (t' : List F) (b : F), b ∈ a :: t → (∀ c ∈ t', c ∈ a :: t) → ∃ m ∈ a :: t, foldE (fun acc y => do
      let c ← expect (Flt.partialCmp (Flt.abs acc) (Flt.abs y))
      .ok (if c = .gt then acc else y)) b t' = .ok m := by
    intro t'
    induction t' with
    | nil => intro b hb _; exact ⟨b, hb, rfl⟩
    | cons c t' ih =>
      intro b hb ht
      obtain ⟨x, hx⟩ := h b hb
      obtain ⟨y, hy⟩ := h c (ht c (by simp))
      unfold foldE
      rw [partialCmp_fin hx.abs hy.abs]
      generalize (if |x| < |y| then Ordering.lt else if |y| < |x| then Ordering.gt else Ordering.eq) = o
      have ho : expect (some o) = .ok o := rfl
      rw [ho, ok_bind, ok_bind]
      by_cases hg : o = .gt
      · rw [if_pos hg]
        exact ih b hb (fun d hd => ht d (by simp [hd]))
      · rw [if_neg hg]
        exact ih c (ht c (by simp)) (fun d hd => ht d (by simp [hd]))
  obtain ⟨m, hm, hf⟩ := key t a (by simp) (fun c hc => by simp [hc])
  refine ⟨m, hm, ?_⟩
  unfold maxByAbs
  dsimp only
  rw [hf]; rfl

/-- A delay between two finite envelopes is always found. -/
theorem bestLag_total [Libm F] {p : Profile} {s1 s2 : List F} {n : ℕ} (h1 : ∀ a ∈ s1, Pw n a) (h2 : ∀ a ∈ s2, Pw n a)
    (hn : n ≤ 300) (h9 : 2 ≤ max s1.length s2.length) (hbig : max s1.length s2.length ≤ 2 ^ 31) :
    ∃ lag, calculateBestLag p s1 s2 = .ok (some lag) := by
  have key : ∃ v, inverseFftPointwiseProduct p s1 s2 = .ok v ∧ max s1.length s2.length ≤ v.length ∧ ∀ a ∈ v, ∃ x, Is a x := by
    unfold inverseFftPointwiseProduct
    simp only [resize_length]
    generalize hN : max s1.length s2.length = N at *
    rw [usub_of_le (by omega)]
    simp only [ok_bind]
    obtain ⟨e, he, he34, hlt⟩ := frexpExp_bound (F := F) (L := N * 2 - 1) (by omega) (by omega)
    rw [he]
    have hp : pow2 p (e : Int) = .ok (2 ^ e) := by
      unfold pow2; rw [if_pos (by omega)]; rfl
    rw [hp]
    simp only [ok_bind]
    have hNe : N ≤ 2 ^ e := by omega
    have he0 : 1 ≤ 2 ^ e := Nat.one_le_two_pow
    obtain ⟨m, hm, hsp, hle, h32, hup⟩ := fftManager_new_bound (p := p) (n := 2 ^ e) (k := 34) he0
      (Nat.pow_le_pow_right (by norm_num) he34) (by omega) (by omega)
    rw [hm]
    simp only [ok_bind]
    unfold fftPointwiseProduct forward1dFromPoints
    simp only [resize_length]
    rw [usub_of_le hNe]
    simp only [ok_bind]
    have hfwd : ∀ s : List F, (∀ a ∈ s, Pw n a) →
        ∀ c ∈ forward1d m (resize s N 0.0 ++ List.replicate (2 ^ e - N) 0.0), CPw (n + 36) c := by
      intro s hs
      apply forward1d_pw (k := 34) _ hup (by omega) (by omega)
      intro a ha
      rcases List.mem_append.mp ha with ha | ha
      · rcases mem_resize ha with ha | rfl
        · exact hs a ha
        · exact Pw.zero
      · rw [List.eq_of_mem_replicate ha]; exact Pw.zero
    have hf1 := hfwd s1 h1
    have hf2 := hfwd s2 h2
    have hlen1 := forward1d_length m (resize s1 N 0.0 ++ List.replicate (2 ^ e - N) (0.0 : F))
    have hlen2 := forward1d_length m (resize s2 N 0.0 ++ List.replicate (2 ^ e - N) (0.0 : F))
    generalize forward1d m (resize s1 N 0.0 ++ List.replicate (2 ^ e - N) (0.0 : F)) = f1 at *
    generalize forward1d m (resize s2 N 0.0 ++ List.replicate (2 ^ e - N) (0.0 : F)) = f2 at *
    have hprod : ∀ c ∈ List.zipWith Cpx.mul f1 (f2.map Cpx.conj), CPw (n + n + 75) c := by
      intro c hc
      obtain ⟨i, hi, rfl⟩ := List.getElem_of_mem hc
      rw [List.getElem_zipWith, List.getElem_map]
      exact ((hf1 _ (List.getElem_mem _)).mul (hf2 _ (List.getElem_mem _)).conj (by omega)).mono (by omega)
    have hplen : (List.zipWith Cpx.mul f1 (f2.map Cpx.conj)).length = m.fftSize := by simp [hlen1, hlen2]
    obtain ⟨v, hv, hvl⟩ := inverse1d_of_length (m := m) hplen (by omega)
    refine ⟨v, hv, by omega, ?_⟩
    intro a ha
    obtain ⟨x, hx, _⟩ := inverse1d_pw hprod hplen hup (by omega) (by omega) (by omega) hv a ha
    exact ⟨x, hx⟩
  obtain ⟨v, hv, hvl, hvf⟩ := key
  unfold calculateBestLag
  rw [usub_of_le (by omega)]
  simp only [ok_bind]
  rw [hv]
  simp only [ok_bind]
  generalize max s1.length s2.length = N at *
  rw [usub_of_le (by omega)]
  simp only [ok_bind]
  rw [sliceM_of_le (by omega) (by omega), sliceM_of_le (by omega) (by omega)]
  simp only [ok_bind]
  generalize hcs : List.take (v.length - (v.length - (N - 1))) (List.drop (v.length - (N - 1)) v) ++
    List.take (N - 1 + 1 - 0) (List.drop 0 v) = cs
  have hfin : ∀ a ∈ cs, ∃ x, Is a x := by
    intro a ha
    rw [← hcs] at ha
    apply hvf
    rcases List.mem_append.mp ha with ha | ha <;> exact List.mem_of_mem_drop (List.mem_of_mem_take ha)
  have hne : cs ≠ [] := by
    intro h
    have := congrArg List.length hcs
    rw [h] at this
    simp at this
    omega
  obtain ⟨b, hb, hmax⟩ := maxByAbs_fin hne hfin
  rw [hmax]
  simp only [ok_bind]
  cases hf : cs.findIdx? (fun r => Flt.eq r b) with
  | some i => exact ⟨_, rfl⟩
  | none =>
    rw [List.findIdx?_eq_none_iff] at hf
    obtain ⟨x, hx⟩ := hfin b hb
    have := hf b hb
    rw [hx.eq hx] at this
    simp at this

end

end Visqol
