import Verif.Props.SelfDelayRounded
import Verif.Props.Delay

/-! # C75: a delayed copy of the reference gets the score of the reference itself -/

set_option linter.unusedSectionVars false

namespace Visqol

/-- `k` samples of silence in front. -/
def AudioSignal.delayed {F : Type} [Flt F] (k : ℕ) (s : AudioSignal F) : AudioSignal F := ⟨List.replicate k 0.0 ++ s.data, s.sampleRate⟩

section any
variable {F : Type} [Flt F] [RustFft F]

/-- C75, any arithmetic: the degraded signal counts only as it is after alignment. -/
theorem C75_same_aligned (p : Profile) (m : Manager F) {ref deg deg' al : AudioSignal F} {l l' : F}
    (h : globallyAlign p ref deg = .ok (some (al, l))) (h' : globallyAlign p ref deg' = .ok (some (al, l'))) :
    m.computeResults p ref deg = m.computeResults p ref deg' := by
  unfold Manager.computeResults
  rw [h, h']
  rfl

end any

section exact
open Spec (Balanced alternating IsBestLag IsDelay ClearPeak accepted shift)

/-- A lag that stands out is the best lag. -/
theorem clear_best {s t : List ℝ} {lag : ℤ} (h : ClearPeak s t 0 lag) : IsBestLag s t lag := by
  have hlt : ∀ k : ℤ, |k| < max s.length t.length → k ≠ lag → |xcorr s t k| < |xcorr s t lag| := fun k hk hne => by
    have := h.2 k hk hne; linarith
  refine ⟨h.1, fun k hk => ?_, fun k hk e => ?_, lag, h.1, rfl, fun k h1 h2 => hlt k ?_ (by omega)⟩
  · by_cases e : k = lag
    · rw [e]
    · exact (hlt k hk e).le
  · by_contra hc
    have := hlt k hk (by omega)
    rw [e] at this
    exact lt_irrefl _ this
  · have := (abs_lt.mp h.1).1
    rw [abs_lt]; omega

theorem alternating_eq (y : List ℝ) : alternating y = ∑ a ∈ Finset.range y.length, y.getD a 0 * (-1) ^ a := by
  induction y with
  | nil => simp [alternating]
  | cons x l ih =>
    rw [alternating, ih, List.length_cons, Finset.sum_range_succ']
    simp only [List.getD_cons_succ, List.getD_cons_zero, pow_zero, mul_one, pow_succ, mul_neg, Finset.sum_neg_distrib]
    ring

theorem highest_balanced {y : List ℝ} (h : alternating y = 0) {N : ℕ} (hN : N % 2 = 0) (h0 : 0 < N) (t : ℕ) : Spec.highest y N t = 0 := by
  unfold Spec.highest
  have hN' : (2 : ℝ) * (N / 2 : ℕ) = N := by exact_mod_cast (by omega : 2 * (N / 2) = N)
  have hne : (N : ℝ) ≠ 0 := by exact_mod_cast h0.ne'
  have e : ∀ a : ℕ, Real.cos (2 * Real.pi * (N / 2 : ℕ) * ((t : ℝ) - a) / N) = (-1) ^ t * (-1) ^ a := by
    intro a
    have : 2 * Real.pi * (N / 2 : ℕ) * ((t : ℝ) - a) / N = t * Real.pi - a * Real.pi := by
      rw [show 2 * Real.pi * (N / 2 : ℕ) * ((t : ℝ) - a) = (2 * (N / 2 : ℕ)) * (Real.pi * ((t : ℝ) - a)) by ring, hN']
      field_simp
    rw [this, Real.cos_sub, Real.cos_nat_mul_pi, Real.cos_nat_mul_pi, Real.sin_nat_mul_pi, zero_mul, add_zero]
  simp only [e]
  have : ∑ a ∈ Finset.range y.length, y.getD a 0 * ((-1) ^ t * (-1) ^ a) = (-1) ^ t * alternating y := by
    rw [alternating_eq, Finset.mul_sum]
    exact Finset.sum_congr rfl fun a _ => by ring
  rw [this, h, mul_zero, zero_div]

/-- The envelope of a signal without constant and highest part. -/
theorem envelope_balanced {s : List ℝ} (h : Balanced s) (N : ℕ) : Spec.envelope s N = s.map fun x => |2 * x - 1 / 1000000| := by
  have hm : mean s = 0 := by unfold mean; rw [h.sum, zero_div]
  have hmiss : ∀ t, Spec.missing s.length N * Spec.highest (s.map (· - mean s)) N t = 0 := by
    intro t
    rw [hm]
    simp only [sub_zero, List.map_id']
    unfold Spec.missing
    split
    · rw [zero_mul]
    · rename_i hc
      push Not at hc
      rcases Nat.eq_zero_or_pos N with rfl | h0
      · simp [Spec.highest]
      · rw [highest_balanced h.alt (by omega) h0, mul_zero]
  unfold Spec.envelope
  apply List.ext_getElem
  · simp
  · intro t h1 h2
    have ht : t < s.length := by simpa using h1
    simp only [List.getElem_map, List.getElem_range]
    rw [hmiss, hm, List.getD_eq_getElem?_getD, List.getElem?_eq_getElem ht, Option.getD_some, sub_zero, sub_zero, add_zero]

theorem balanced_delayed {s : List ℝ} (h : Balanced s) (k : ℕ) : Balanced (List.replicate k 0 ++ s) := by
  induction k with
  | zero => simpa using h
  | succ k ih =>
    rw [List.replicate_succ, List.cons_append]
    exact ⟨by rw [List.sum_cons, ih.sum, add_zero], by rw [alternating, ih.alt, sub_zero]⟩

/-- Correlation with a signal that starts with a constant stretch. -/
theorem xcorr_delayed (e : List ℝ) (c : ℝ) (k : ℕ) (lag : ℤ) :
    xcorr e (List.replicate k c ++ e) lag = c * (∑ j ∈ Finset.range k, sampleAt e (j + lag)) + xcorr e e (lag + k) := by
  unfold xcorr
  rw [List.length_append, List.length_replicate, Finset.sum_range_add, Finset.mul_sum]
  congr 1
  · refine Finset.sum_congr rfl fun j hj => ?_
    have hj := Finset.mem_range.mp hj
    rw [sampleAt_nat (List.replicate k c ++ e), List.getD_eq_getElem?_getD, List.getElem?_append_left (by simpa using hj),
      List.getElem?_replicate, if_pos hj, Option.getD_some, mul_comm]
  · refine Finset.sum_congr rfl fun j _ => ?_
    rw [sampleAt_nat (List.replicate k c ++ e), List.getD_eq_getElem?_getD, List.getElem?_append_right (by simp), List.length_replicate,
      Nat.add_sub_cancel_left, ← List.getD_eq_getElem?_getD, ← sampleAt_nat]
    congr 2
    push_cast
    ring

theorem sampleAt_sum_le {e : List ℝ} (h : ∀ x ∈ e, 0 ≤ x) (k : ℕ) (lag : ℤ) :
    0 ≤ ∑ j ∈ Finset.range k, sampleAt e (j + lag) ∧ ∑ j ∈ Finset.range k, sampleAt e (j + lag) ≤ e.sum := by
  have hnn : ∀ i, 0 ≤ sampleAt e i := by
    intro i
    unfold sampleAt
    split
    · rw [List.getD_eq_getElem?_getD]
      cases hx : e[i.toNat]? with
      | none => simp
      | some x => simpa using h x (List.mem_of_getElem? hx)
    · exact le_rfl
  refine ⟨Finset.sum_nonneg fun _ _ => hnn _, ?_⟩
  have e1 : e.sum = ∑ i ∈ Finset.range e.length, e.getD i 0 := by
    clear h hnn
    induction e with
    | nil => simp
    | cons x l ih =>
      rw [List.sum_cons, ih, List.length_cons, Finset.sum_range_succ']
      simp only [List.getD_cons_succ, List.getD_cons_zero]
      ring
  have e2 : ∑ i ∈ Finset.range e.length, e.getD i 0 = ∑ i ∈ Finset.Ico (0 : ℤ) e.length, sampleAt e i := by
    refine Finset.sum_bij (fun i _ => (i : ℤ)) ?_ ?_ ?_ ?_
    · intro i hi; have := Finset.mem_range.mp hi; rw [Finset.mem_Ico]; omega
    · intro a _ b _ hab; exact_mod_cast hab
    · intro b hb
      rw [Finset.mem_Ico] at hb
      exact ⟨b.toNat, Finset.mem_range.mpr (by omega), by omega⟩
    · intro i _; rw [sampleAt_nat]
  rw [e1, e2]
  calc ∑ j ∈ Finset.range k, sampleAt e (j + lag)
      = ∑ i ∈ (Finset.range k).map ⟨fun j : ℕ => (j : ℤ) + lag, fun a b hab => by simpa using hab⟩, sampleAt e i := by
        rw [Finset.sum_map]; rfl
    _ = ∑ i ∈ ((Finset.range k).map ⟨fun j : ℕ => (j : ℤ) + lag, fun a b hab => by simpa using hab⟩).filter (fun i : ℤ => 0 ≤ i ∧ i < (e.length : ℤ)),
        sampleAt e i := by
        symm
        refine Finset.sum_subset (Finset.filter_subset _ _) fun i hi hn => ?_
        rw [Finset.mem_filter] at hn
        refine sampleAt_outside le_rfl ?_
        by_contra hc
        exact hn ⟨hi, by omega, by omega⟩
    _ ≤ ∑ i ∈ Finset.Ico (0 : ℤ) e.length, sampleAt e i := by
        refine Finset.sum_le_sum_of_subset_of_nonneg (fun i hi => ?_) fun _ _ _ => hnn _
        rw [Finset.mem_filter] at hi
        exact Finset.mem_Ico.mpr hi.2

/-- The correlation of a balanced signal with a delayed copy stands out at the delay, if the ends are loud enough. -/
theorem C75_clear {s : List ℝ} (h : Balanced s) (hne : s ≠ []) (k : ℕ) {tol : ℝ} (M N : ℕ)
    (hloud : tol + (s.map fun x => |2 * x - 1 / 1000000|).sum / 1000000 <
      ((2 * s.getD 0 0 - 1 / 1000000) ^ 2 + (2 * s.getD (s.length - 1) 0 - 1 / 1000000) ^ 2) / 2) :
    ClearPeak (Spec.envelope s M) (Spec.envelope (List.replicate k 0 ++ s) N) tol (-k) := by
  have hpos : 0 < s.length := List.length_pos_iff.mpr hne
  rw [envelope_balanced h, envelope_balanced (balanced_delayed h k), List.map_append, List.map_replicate]
  have hc : |2 * (0 : ℝ) - 1 / 1000000| = 1 / 1000000 := by norm_num
  rw [hc]
  have hget : ∀ i < s.length, (s.map fun x => |2 * x - 1 / 1000000|).getD i 0 ^ 2 = (2 * s.getD i 0 - 1 / 1000000) ^ 2 := by
    intro i hi
    rw [List.getD_eq_getElem?_getD, List.getElem?_map, List.getD_eq_getElem?_getD, List.getElem?_eq_getElem hi, Option.map_some, Option.getD_some,
      Option.getD_some, sq_abs]
  rw [← hget 0 hpos, ← hget (s.length - 1) (by omega)] at hloud
  have hnn : ∀ x ∈ s.map fun x => |2 * x - 1 / 1000000|, 0 ≤ x := by
    intro x hx
    obtain ⟨y, _, rfl⟩ := List.mem_map.mp hx
    exact abs_nonneg _
  have hlen : (s.map fun x => |2 * x - 1 / 1000000|).length = s.length := by simp
  rw [← hlen] at hloud hpos
  generalize (s.map fun x => |2 * x - 1 / 1000000|) = e at *
  have h0 : xcorr e (List.replicate k (1 / 1000000) ++ e) (-k) = xcorr e e 0 := by
    rw [xcorr_delayed, Finset.sum_eq_zero, mul_zero, zero_add, neg_add_cancel]
    intro j hj
    exact sampleAt_outside le_rfl (by have := Finset.mem_range.mp hj; omega)
  refine ⟨?_, fun lag _ hlag => ?_⟩
  · rw [List.length_append, List.length_replicate, abs_neg, Nat.abs_cast]
    exact_mod_cast (by omega : k < max e.length (k + e.length))
  · have a1 := self_corr_le e (k := lag + k) (by omega) (List.length_pos_iff.mp hpos)
    obtain ⟨b1, b2⟩ := sampleAt_sum_le hnn k lag
    rw [h0, xcorr_delayed]
    have c1 := abs_add_le (1 / 1000000 * (∑ j ∈ Finset.range k, sampleAt e (j + lag))) (xcorr e e (lag + k))
    rw [abs_of_nonneg (by positivity : 0 ≤ 1 / 1000000 * (∑ j ∈ Finset.range k, sampleAt e (j + lag)))] at c1
    have c2 := le_abs_self (xcorr e e 0)
    linarith

/-- C75, exact arithmetic: if the delay of a delayed copy is found, the comparison gives exactly what comparing the reference with
itself gives. -/
theorem C75_delayed_copy (p : Profile) {pad : ℕ → ℕ} (hpad : ∀ n, 1 ≤ n → n ≤ 2 ^ 63 → nextPowTwo p n = .ok (pad n)) (m : Manager ℝ)
    {ref : AudioSignal ℝ} {k : ℕ} (h9 : 9 ≤ ref.data.length) (hbig : k + ref.data.length ≤ 2 ^ 62)
    (hfound : IsDelay pad ref.data (ref.delayed k).data (-k)) :
    m.computeResults p ref (ref.delayed k) = m.computeResults p ref ref := by
  have hl : (ref.delayed k).data.length = k + ref.data.length := by simp [AudioSignal.delayed]
  obtain ⟨z, hz, ha⟩ := C70_delay p hpad (ref := ref) (deg := ref.delayed k) (by omega) (by omega) (by omega) (by omega)
  rw [C70_unique hz hfound] at ha
  have hs : (⟨shift (-k) (ref.delayed k).data, (ref.delayed k).sampleRate⟩ : AudioSignal ℝ) = ref := by
    unfold shift AudioSignal.delayed
    simp
  rw [hs] at ha
  exact C75_same_aligned p m ha (globallyAlign_self p h9 (by omega))

/-- C75, exact arithmetic: the delay of a copy delayed by at most half its length is found if the signal has no constant part,
nothing at half the sample rate, and loud ends. -/
theorem C75_found (pad : ℕ → ℕ) {s : List ℝ} (h : Balanced s) (hne : s ≠ []) {k : ℕ} (hk : k ≤ s.length / 2)
    (hloud : (s.map fun x => |2 * x - 1 / 1000000|).sum / 1000000 <
      ((2 * s.getD 0 0 - 1 / 1000000) ^ 2 + (2 * s.getD (s.length - 1) 0 - 1 / 1000000) ^ 2) / 2) :
    IsDelay pad s (List.replicate k 0 ++ s) (-k) := by
  refine ⟨-k, clear_best (C75_clear h hne k _ _ (by linarith)), ?_⟩
  unfold accepted
  rw [if_neg (by omega)]

/-- Two notes of alternating sign, again and again. -/
noncomputable def tone : ℕ → List ℝ
  | 0 => []
  | n + 1 => 1 :: -1 :: -1 :: 1 :: tone n

theorem tone_length (n : ℕ) : (tone n).length = 4 * n := by
  induction n with
  | zero => rfl
  | succ n ih => simp only [tone, List.length_cons, ih]; omega

theorem tone_balanced (n : ℕ) : Balanced (tone n) := by
  induction n with
  | zero => exact ⟨rfl, rfl⟩
  | succ n ih =>
    refine ⟨?_, ?_⟩
    · simp only [tone, List.sum_cons, ih.sum]; norm_num
    · simp only [tone, alternating, ih.alt]; norm_num

theorem tone_sum (n : ℕ) : ((tone n).map fun x : ℝ => |2 * x - 1 / 1000000|).sum = 8 * (n : ℝ) := by
  induction n with
  | zero => simp [tone]
  | succ n ih =>
    simp only [tone, List.map_cons, List.sum_cons, ih]
    push_cast
    rw [show |(2 : ℝ) * 1 - 1 / 1000000| = 2 - 1 / 1000000 by rw [abs_of_pos] <;> norm_num,
      show |(2 : ℝ) * (-1) - 1 / 1000000| = 2 + 1 / 1000000 by rw [abs_of_neg] <;> norm_num]
    ring

theorem tone_last (n : ℕ) : (tone (n + 1)).getD ((tone (n + 1)).length - 1) 0 = 1 := by
  have h : ∀ n, (tone (n + 1)).getD (4 * n + 3) 0 = 1 := by
    intro n
    induction n with
    | zero => rfl
    | succ n ih =>
      rw [tone, show 4 * (n + 1) + 3 = 4 * n + 3 + 1 + 1 + 1 + 1 by ring]
      simp only [List.getD_cons_succ]
      exact ih
  rw [tone_length, show 4 * (n + 1) - 1 = 4 * n + 3 by omega]
  exact h n

theorem tone_loud {n : ℕ} (hn : 0 < n) {tol : ℝ} (h : tol + 8 * n / 1000000 < 3) : tol + ((tone n).map fun x => |2 * x - 1 / 1000000|).sum / 1000000 <
    ((2 * (tone n).getD 0 0 - 1 / 1000000) ^ 2 + (2 * (tone n).getD ((tone n).length - 1) 0 - 1 / 1000000) ^ 2) / 2 := by
  obtain ⟨n, rfl⟩ := Nat.exists_eq_succ_of_ne_zero hn.ne'
  rw [Nat.succ_eq_add_one] at *
  rw [tone_sum, tone_last, show (tone (n + 1)).getD 0 0 = 1 from rfl]
  norm_num at h ⊢
  linarith

/-- The hypotheses of `C75_delayed_copy` and `C75_found`: two and a half seconds of `tone`, delayed by one second. -/
example (pad : ℕ → ℕ) : IsDelay pad (⟨tone 10000, 16000⟩ : AudioSignal ℝ).data (AudioSignal.delayed 16000 ⟨tone 10000, 16000⟩).data (-16000) := by
  unfold AudioSignal.delayed
  rw [real_lit0]
  refine C75_found pad (tone_balanced _) ?_ ?_ ?_
  · rw [Ne, ← List.length_eq_zero_iff, tone_length]; norm_num
  · rw [tone_length]; norm_num
  · have := tone_loud (n := 10000) (by norm_num) (tol := 0) (by norm_num)
    rwa [zero_add] at this

end exact

section ieee
open Ieee Spec
variable {F : Type} [Flt F] [Ieee F] [Libm F] [RustFft F] [AccurateFft F]

/-- C75, floating point: the result of comparing a signal with a copy delayed by at most half its length is bit for bit that of
comparing it with itself, if the signal has no constant part, nothing at half the sample rate, and loud ends. -/
theorem C75_rounded (p : Profile) (m : Manager F) {ref : AudioSignal F} {k : ℕ} (ho : OrdinarySamples ref) (h9 : 9 ≤ ref.data.length)
    (h24 : k + ref.data.length ≤ 2 ^ 24) (hk : k ≤ ref.data.length / 2) (hsr : 1 ≤ ref.sampleRate) (hsr2 : ref.sampleRate ≤ 2 ^ 53)
    (hb : Balanced (ref.data.map number))
    (hloud : (k + ref.data.length : ℕ) * Real.sqrt (k + ref.data.length : ℕ) / 2 ^ 26 +
        ((ref.data.map number).map fun x => |2 * x - 1 / 1000000|).sum / 1000000 <
      ((2 * (ref.data.map number).getD 0 0 - 1 / 1000000) ^ 2 +
        (2 * (ref.data.map number).getD (ref.data.length - 1) 0 - 1 / 1000000) ^ 2) / 2) :
    m.computeResults p ref (ref.delayed k) = m.computeResults p ref ref := by
  obtain ⟨pad, hpad⟩ := pad_exists p
  have hne : ref.data.map number ≠ [] := by
    rw [Ne, ← List.length_eq_zero_iff, List.length_map]; omega
  have hlm : (ref.data.map number).length = ref.data.length := List.length_map _
  rw [← hlm] at hloud
  -- the copy
  have hl : (ref.delayed k).data.length = k + ref.data.length := by simp [AudioSignal.delayed]
  have hm : max ref.data.length (ref.delayed k).data.length = k + ref.data.length := by omega
  have hdo : OrdinarySamples (ref.delayed k) := by
    intro a ha
    rcases List.mem_append.mp ha with ha | ha
    · rw [List.eq_of_mem_replicate ha]; exact ⟨0, val_0, by norm_num⟩
    · exact ho a ha
  have hdn : (ref.delayed k).data.map number = List.replicate k 0 ++ ref.data.map number := by
    unfold AudioSignal.delayed
    rw [List.map_append, List.map_replicate, number_of (val_0 (F := F))]
  obtain ⟨z, al, l, a1, ⟨lag, a2, a3⟩, a4, a5, _, _⟩ := C70_rounded p hpad ho hdo (by omega) (by omega) (by omega) (by omega) (by omega) hsr hsr2
  rw [hm, hdn] at a2
  have hlag : lag = -k := nearBest_clear a2 (C75_clear hb hne k _ _ (by rw [hlm] at hloud ⊢; exact hloud))
  have hz : z = -k := by
    rw [a3, hlag]
    unfold accepted
    rw [hlm, if_neg (by omega)]
  have hal : al = ref := by
    have hlen : al.data.length = ref.data.length := by
      have := congrArg List.length a5
      rw [hz] at this
      simpa [shift, hl] using this
    obtain ⟨b1, b2⟩ := C39_only_shifts a1
    have hdata : al.data = ref.data := by
      rcases b2 with ⟨b2, _⟩ | ⟨j, b2, _, _, ⟨b3, b4, b5⟩ | ⟨b3, b5⟩⟩
      · have : k = 0 := by rw [b2, hl] at hlen; omega
        rw [b2, this]; simp [AudioSignal.delayed]
      · have : j.natAbs = k := by rw [b5, List.length_drop, hl] at hlen; omega
        rw [b5, this]; simp [AudioSignal.delayed]
      · rw [b5, List.length_append, List.length_replicate, hl] at hlen
        omega
    cases al
    cases ref
    simp only [AudioSignal.mk.injEq]
    exact ⟨hdata, b1⟩
  rw [hal] at a1
  -- the signal itself
  have hmono : (ref.data.length : ℝ) * Real.sqrt ref.data.length / 2 ^ 26 ≤ (k + ref.data.length : ℕ) * Real.sqrt (k + ref.data.length : ℕ) / 2 ^ 26 := by
    have : (ref.data.length : ℝ) ≤ (k + ref.data.length : ℕ) := by push_cast; linarith [Nat.cast_nonneg (α := ℝ) k]
    have h2 := Real.sqrt_le_sqrt this
    gcongr
  have hself := C75_clear hb hne 0 (tol := ref.data.length * Real.sqrt ref.data.length / 2 ^ 26) (max (pad ref.data.length) 32)
    (max (pad ref.data.length) 32) (by rw [hlm] at hloud ⊢; linarith)
  rw [List.replicate_zero, List.nil_append, Int.natCast_zero, neg_zero] at hself
  obtain ⟨l', hl', _⟩ := self_no_delay p hpad ho h9 (by omega) hsr hsr2 hself
  exact C75_same_aligned p m a1 hl'

/-- `tone` in double precision. -/
noncomputable def tone64 : ℕ → List B64
  | 0 => []
  | n + 1 => 1.0 :: -1.0 :: -1.0 :: 1.0 :: tone64 n

theorem tone64_val (n : ℕ) : (tone64 n).map number = tone n ∧ ∀ a ∈ tone64 n, ∃ x, val a = .fin x ∧ |x| ≤ 2 := by
  have h1 : number (1.0 : B64) = 1 := number_of val_1
  have hn : val (-(1.0 : B64)) = .fin (-1) := Is.neg (show Is (1.0 : B64) 1 from val_1)
  have h2 : number (-(1.0 : B64)) = -1 := number_of hn
  induction n with
  | zero => exact ⟨rfl, by simp [tone64]⟩
  | succ n ih =>
    refine ⟨by simp only [tone64, tone, List.map_cons, h1, h2, ih.1], ?_⟩
    intro a ha
    simp only [tone64, List.mem_cons] at ha
    rcases ha with rfl | rfl | rfl | rfl | ha
    · exact ⟨1, val_1, by norm_num⟩
    · exact ⟨-1, hn, by norm_num⟩
    · exact ⟨-1, hn, by norm_num⟩
    · exact ⟨1, val_1, by norm_num⟩
    · exact ih.2 a ha

/-- The hypotheses of `C75_rounded`: two and a half seconds of `tone`, delayed by one second. -/
example (p : Profile) (m : Manager B64) : m.computeResults p ⟨tone64 10000, 16000⟩ (AudioSignal.delayed 16000 ⟨tone64 10000, 16000⟩) =
    m.computeResults p ⟨tone64 10000, 16000⟩ ⟨tone64 10000, 16000⟩ := by
  obtain ⟨h1, h2⟩ := tone64_val 10000
  have hl : (tone64 10000).length = 40000 := by
    have := congrArg List.length h1
    rw [List.length_map, tone_length] at this
    rw [this]
  have ht := tone_length 10000
  generalize tone64 10000 = t at *
  refine C75_rounded p m h2 ?_ ?_ ?_ (by norm_num) (by norm_num) (by rw [h1]; exact tone_balanced _) ?_
  · show 9 ≤ t.length
    rw [hl]; norm_num
  · show 16000 + t.length ≤ _
    rw [hl]; norm_num
  · show 16000 ≤ t.length / 2
    rw [hl]; norm_num
  · show ((16000 + t.length : ℕ) : ℝ) * Real.sqrt (16000 + t.length : ℕ) / 2 ^ 26 +
        ((t.map number).map fun x => |2 * x - 1 / 1000000|).sum / 1000000 <
      ((2 * (t.map number).getD 0 0 - 1 / 1000000) ^ 2 +
        (2 * (t.map number).getD (t.length - 1) 0 - 1 / 1000000) ^ 2) / 2
    rw [hl, h1]
    have := tone_loud (n := 10000) (by norm_num) (tol := ((16000 + 40000 : ℕ) : ℝ) * Real.sqrt (16000 + 40000 : ℕ) / 2 ^ 26) (by
      have : Real.sqrt ((16000 + 40000 : ℕ) : ℝ) ≤ 237 := Real.sqrt_le_iff.mpr ⟨by norm_num, by norm_num⟩
      norm_num at this ⊢
      linarith)
    rw [ht] at this
    exact this

end ieee
end Visqol
