import Verif.Lemmas.IeeeSum
import Verif.Props.Polarity

/-! # Voice activity in terms of samples in floating point (C30) -/

namespace Visqol
open Ieee

/-- The 16-bit value of a number: without its fraction, limited to 16 bits. -/
noncomputable def pcm16 (t : ℝ) : ℤ := max (-32768) (min 32767 (if 0 ≤ t then ⌊t⌋ else ⌈t⌉))

theorem pcm16_range (t : ℝ) : -32768 ≤ pcm16 t ∧ pcm16 t ≤ 32767 :=
  ⟨le_max_left _ _, max_le (by norm_num) (min_le_left _ _)⟩

section ieee
variable {F : Type} [Flt F] [Ieee F] [Libm F]

theorem toPcm_ieee {a : F} {x y : ℝ} (ha : Is a x) (hy : rnd F (x * 32768) = .fin y) : toPcm a = pcm16 y := by
  have hi : ∀ z : Int, |z| ≤ 2 ^ 53 → Is (Flt.ofInt z : F) z := fun z hz => by
    unfold Is; rw [val_ofInt, rnd_int F hz]
  have e : Flt.toI16 (a * Flt.ofInt 32768) = pcm16 y := by
    rw [Libm.toI16_val _ y]
    · rfl
    · rw [val_mul, ha, hi 32768 (by norm_num)]
      show rnd F _ = _
      exact_mod_cast hy
  obtain ⟨f0, f1⟩ := pcm16_range y
  have h3 : Is ((1.0 : F) * Flt.ofInt 32767) 32767 := by
    unfold Is
    rw [val_mul, val_1, hi 32767 (by norm_num)]
    show rnd F _ = _
    have := rnd_int F (k := 32767) (by norm_num)
    rw [one_mul]; exact_mod_cast this
  have hm := ((hi (-32768) (by norm_num)).max h3).min (hi (pcm16 y) (abs_le.mpr ⟨by omega, by omega⟩))
  have f1' : ((pcm16 y : ℤ) : ℝ) ≤ 32767 := by exact_mod_cast f1
  have e2 : min (max ((-32768 : ℤ) : ℝ) 32767) ((pcm16 y : ℤ) : ℝ) = ((pcm16 y : ℤ) : ℝ) := by
    rw [max_eq_right (by norm_num), min_eq_right (by linarith)]
  rw [e2] at hm
  unfold toPcm
  dsimp only
  rw [e, Libm.toI16_val _ _ hm, realToInt_intCast (by omega) (by omega)]

/-- The comparison of the root mean square of a frame with 5000 is exact. -/
theorem loud_exact {norm : List F} {hop f : Nat} (hh : 0 < hop) (hh2 : hop ≤ 2 ^ 20) (hl : (judgedFrame norm hop f).length ≤ hop)
    (hj : ∀ z ∈ judgedFrame norm hop f, -32768 ≤ z ∧ z ≤ 32767) :
    Loud norm hop f ↔ 5000 ^ 2 * (hop : ℤ) ≤ ((judgedFrame norm hop f).map fun x => x * x).sum := by
  have hs : ∀ l : List Int, (∀ z ∈ l, -32768 ≤ z ∧ z ≤ 32767) →
      0 ≤ (l.map fun x => x * x).sum ∧ (l.map fun x => x * x).sum ≤ l.length * 1073741824 := by
    intro l
    induction l with
    | nil => intro _; simp
    | cons z l ih =>
      intro h
      obtain ⟨i1, i2⟩ := ih fun z hz => h z (by simp [hz])
      obtain ⟨z1, z2⟩ := h z (by simp)
      rw [List.map_cons, List.sum_cons, List.length_cons]
      push_cast
      constructor <;> nlinarith
  obtain ⟨s0, s1⟩ := hs _ hj
  unfold Loud
  generalize ((judgedFrame norm hop f).map fun x => x * x).sum = S at *
  have hh' : (0 : ℝ) < hop := by exact_mod_cast hh
  have s2 : S ≤ hop * 1073741824 := s1.trans (by
    have : ((judgedFrame norm hop f).length : ℤ) ≤ hop := by exact_mod_cast hl
    linarith)
  have s2' : (S : ℝ) ≤ hop * 1073741824 := by exact_mod_cast s2
  have s0' : (0 : ℝ) ≤ S := by exact_mod_cast s0
  have a1 : val (Flt.ofInt S : F) = .fin S := by
    rw [val_ofInt, rnd_int F (by
      rw [abs_of_nonneg s0]
      have : (hop : ℤ) ≤ 2 ^ 20 := by exact_mod_cast hh2
      linarith)]
  have a2 : val (Flt.ofNat hop : F) = .fin hop := by rw [val_ofNat, rnd_nat F (hh2.trans (by norm_num))]
  have q1 : (S : ℝ) / hop ≤ 1073741824 := by rw [div_le_iff₀ hh']; linarith
  have q0 : 0 ≤ (S : ℝ) / hop := by positivity
  have qb : |(S : ℝ) / hop| ≤ 2 ^ 30 := by rw [abs_of_nonneg q0]; exact q1.trans (by norm_num)
  obtain ⟨q, hq, _⟩ := rnd_err F qb (by norm_num) (two_pow_mono (by norm_num))
  have r1 : rnd F (25000000 : ℝ) = .fin 25000000 := by
    have := rnd_int F (k := 25000000) (by norm_num); exact_mod_cast this
  have r2 : rnd F (5000 : ℝ) = .fin 5000 := by
    have := rnd_int F (k := 5000) (by norm_num); exact_mod_cast this
  have r3 : rnd F (1073741824 : ℝ) = .fin 1073741824 := by
    have := rnd_int F (k := 1073741824) (by norm_num); exact_mod_cast this
  have b0 : 0 ≤ q := rnd_mono _ _ _ _ q0 (rnd_zero F) hq
  have b1 : q ≤ 1073741824 := rnd_mono _ _ _ _ q1 hq r3
  have a3 : Is (Flt.ofInt S / Flt.ofNat hop : F) q := by
    unfold Is; rw [div_fin _ _ _ _ a1 a2 hh'.ne', hq]
  have c1 : Real.sqrt q ≤ 32768 := by
    rw [Real.sqrt_le_left (by norm_num)]; norm_num; exact b1
  obtain ⟨t, ht, _⟩ := rnd_err F (x := Real.sqrt q) (B := 2 ^ 15) (by
    rw [abs_of_nonneg (Real.sqrt_nonneg _)]
    exact c1.trans (by norm_num)) (by norm_num) (two_pow_mono (by norm_num))
  have a5 : val (5000.0 : F) = .fin 5000 := by
    have := val_litnat (F := F) (m := 50000) (e := 1) (k := 5000) (by norm_num) (by norm_num); exact_mod_cast this
  rw [Is.lt ((a3.sqrt b0).trans ht) a5, decide_eq_false_iff_not, not_lt]
  constructor
  · intro h
    by_contra hcon
    have hS : S ≤ 25000000 * hop - 1 := by push Not at hcon; norm_num at hcon; omega
    have hS' : (S : ℝ) ≤ 25000000 * hop - 1 := by exact_mod_cast hS
    have hh3 : (hop : ℝ) ≤ 2 ^ 20 := by exact_mod_cast hh2
    have k1 : (S : ℝ) / hop ≤ 25000000 - 1 / 2 ^ 20 := by
      rw [div_le_iff₀ hh']
      have : 1 / 2 ^ 20 * (hop : ℝ) ≤ 1 / 2 ^ 20 * 2 ^ 20 := mul_le_mul_of_nonneg_left hh3 (by norm_num)
      rw [one_div_mul_cancel (by norm_num)] at this
      rw [sub_mul]
      linarith
    obtain ⟨q', hq', hqe⟩ := rnd_err F (x := (S : ℝ) / hop) (B := 2 ^ 25) (by
      rw [abs_of_nonneg q0]; norm_num at k1 ⊢; linarith) (by norm_num) (two_pow_mono (by norm_num))
    rw [hq] at hq'
    cases hq'
    have k2 : q ≤ 25000000 - 1 / 2 ^ 21 := by
      have := (abs_le.mp hqe).2
      norm_num at this k1 ⊢
      linarith
    have k3 : Real.sqrt q ≤ 5000 - 1 / 2 ^ 36 := by
      rw [Real.sqrt_le_left (by norm_num)]
      refine k2.trans ?_
      norm_num
    obtain ⟨t', ht', hte⟩ := rnd_err F (x := Real.sqrt q) (B := 2 ^ 13) (by
      rw [abs_of_nonneg (Real.sqrt_nonneg _)]; norm_num at k3 ⊢; linarith) (by norm_num) (two_pow_mono (by norm_num))
    rw [ht] at ht'
    cases ht'
    have := (abs_le.mp hte).2
    norm_num at this k3
    linarith
  · intro h
    have h' : (25000000 : ℝ) * hop ≤ S := by
      have : (25000000 : ℤ) * hop ≤ S := by norm_num at h; exact h
      exact_mod_cast this
    have k1 : (25000000 : ℝ) ≤ (S : ℝ) / hop := by rw [le_div_iff₀ hh']; exact h'
    have k2 : 25000000 ≤ q := rnd_mono _ _ _ _ k1 r1 hq
    have k3 : 5000 ≤ Real.sqrt q := by
      rw [Real.le_sqrt' (by norm_num)]; norm_num; exact k2
    exact rnd_mono _ _ _ _ k3 r2 ht

/-- C30, in terms of the samples of the reference, in floating point: there are numbers `t i`, each equal to `32768 x / M` for sample `x`
with index `i` and largest sample `M` up to a relative error of `2⁻⁵⁰`, such that a patch is kept exactly if one of the frames it is judged
by is among the first two, or it or one of its two predecessors has 16-bit values of the `t i` with a root mean square of at least 5000. -/
theorem C30_in_samples_rounded (p : Profile) {ref : AudioSignal F} {w : AnalysisWindow F} (hs : w.size ≤ ref.data.length)
    (hh : 0 < w.hop) (hh2 : w.hop ≤ 2 ^ 20) (h0 : 0 < w.size) (hc : 44 ≤ numColumns ref.data.length w.size w.hop)
    (hfin : ∀ a ∈ ref.data, ∃ x, val a = .fin x ∧ |x| ≤ 2 ^ 20) {b : F} (hM : b ∈ ref.data)
    (hmax : ∀ a ∈ ref.data, number a ≤ number b) (hM0 : 1 / 2 ^ 40 ≤ |number b|) :
    ∃ t : ℕ → ℝ, (∀ i < ref.data.length, |t i - number (ref.data.getD i 0.0) / number b * 32768| ≤
        |number (ref.data.getD i 0.0) / number b * 32768| / 2 ^ 50 + 1 / 2 ^ 900) ∧
      ∃ ix, (PatchCreator.vad 30).indices p (numColumns ref.data.length w.size w.hop) ref w = .ok ix ∧ ∀ k,
      14 + 30 * k ∈ ix ↔ 14 + 30 * k + 30 ≤ numColumns ref.data.length w.size w.hop ∧
        ∃ f, 30 * k ≤ f ∧ f < 30 * k + 30 ∧ (f < 2 ∨ ∃ g, f ≤ g + 2 ∧ g ≤ f ∧
          5000 ^ 2 * (w.hop : ℤ) ≤ ∑ i ∈ Finset.range w.hop, pcm16 (t (14 + g * w.hop + i)) ^ 2) := by
  have hne : ref.data ≠ [] := List.ne_nil_of_mem hM
  obtain ⟨m, M, hm, hmem, hMv, hmx⟩ := extremum_max_ieee hne (fun a ha => (hfin a ha).imp fun x hx => hx.1)
  have eM : number b = M := by
    obtain ⟨B, hB, _⟩ := hfin b hM
    have h1 := hmx b hM B hB
    have h2 := hmax m hmem
    rw [number_of hMv, number_of hB] at h2
    rw [number_of hB]; exact le_antisymm h1 h2
  rw [eM] at hM0 ⊢
  have hMne : M ≠ 0 := by rintro rfl; norm_num at hM0
  have hn : normalizeSignal ref.data = .ok (ref.data.map (· / m)) := by
    unfold normalizeSignal; rw [hm]; rfl
  obtain ⟨ix, hix, _⟩ := (C26_wideband p (m := (⟨numColumns ref.data.length w.size w.hop, []⟩ : Mat F)) hs hh h0 rfl hc).1 _ hn
  -- the value of a sample
  have sample : ∀ a ∈ ref.data, ∃ y, toPcm (a / m) = pcm16 y ∧ |y - number a / M * 32768| ≤ |number a / M * 32768| / 2 ^ 50 + 1 / 2 ^ 900 := by
    intro a ha
    obtain ⟨x, hx, hxb⟩ := hfin a ha
    rw [number_of hx]
    have u1 : |x / M| ≤ 2 ^ 60 := by
      rw [abs_div, div_le_iff₀ (abs_pos.mpr hMne)]
      have := mul_le_mul_of_nonneg_left hM0 (show (0 : ℝ) ≤ 2 ^ 60 by norm_num)
      norm_num at this hxb ⊢
      linarith
    obtain ⟨v, hv, hve⟩ := rnd_acc (F := F) (x / M) (u1.trans (two_pow_mono (by norm_num)))
    have htiny : (1 : ℝ) / 2 ^ 1000 ≤ 1 / 2 ^ 1 := tiny_le_pow (by norm_num)
    have v1 : |v| ≤ 2 ^ 61 := by
      have := abs_sub_abs_le_abs_sub v (x / M)
      generalize |x / M| = X at *
      generalize (1 : ℝ) / 2 ^ 1000 = t at *
      norm_num at u1 hve htiny ⊢
      linarith only [this, u1, hve, htiny]
    obtain ⟨y, hy, hye⟩ := rnd_acc (F := F) (v * 32768) (by
      rw [abs_mul, abs_of_pos (by norm_num : (0 : ℝ) < 32768)]
      refine le_trans ?_ (two_pow_mono (m := 76) (by norm_num))
      norm_num at v1 ⊢; linarith)
    refine ⟨y, toPcm_ieee (x := v) ?_ hy, ?_⟩
    · unfold Is; rw [div_fin _ _ _ _ hx hMv hMne, hv]
    · have h900 : (2 : ℝ) ^ 20 * (1 / 2 ^ 1000) ≤ 1 / 2 ^ 900 := by
        rw [mul_one_div, div_le_div_iff₀ (by positivity) (by positivity), ← pow_add, one_mul]
        exact two_pow_mono (by norm_num)
      have ht0 : (0 : ℝ) ≤ 1 / 2 ^ 1000 := by positivity
      have w1 : |v| ≤ |x / M| + |v - x / M| := by
        have := abs_sub_abs_le_abs_sub v (x / M); linarith
      have w2 : |y - x / M * 32768| ≤ |y - v * 32768| + |v - x / M| * 32768 := by
        have e : y - x / M * 32768 = (y - v * 32768) + (v - x / M) * 32768 := by ring
        rw [e]
        refine (abs_add_le _ _).trans ?_
        rw [abs_mul (v - x / M), abs_of_pos (by norm_num : (0 : ℝ) < 32768)]
      rw [abs_mul v, abs_of_pos (by norm_num : (0 : ℝ) < 32768)] at hye
      rw [abs_mul (x / M), abs_of_pos (by norm_num : (0 : ℝ) < 32768)]
      clear v1 u1 htiny hy hv hxb
      have hX := abs_nonneg (x / M)
      generalize |x / M| = X at *
      generalize |v - x / M| = V at *
      generalize |y - x / M * 32768| = Y at *
      generalize |y - v * 32768| = Z at *
      generalize |v| = W at *
      generalize (1 : ℝ) / 2 ^ 1000 = t at *
      generalize (1 : ℝ) / 2 ^ 900 = T at *
      norm_num at *
      linarith only [hye, hve, w1, w2, h900, ht0, hX]
  choose! y hy1 hy2 using sample
  refine ⟨fun i => y (ref.data.getD i 0.0), fun i hi => ?_, ix, hix, fun k => ?_⟩
  · beta_reduce
    rw [List.getD_eq_getElem?_getD, List.getElem?_eq_getElem hi, Option.getD_some]
    exact hy2 _ (List.getElem_mem hi)
  rw [C30_kept_iff p hs hh h0 hc hn hix k]
  refine and_congr_right fun hk => exists_congr fun f => and_congr_right fun h1 => and_congr_right fun h2 => ?_
  have hl : ∀ g, g < 30 * k + 30 → (Loud (ref.data.map (· / m)) w.hop g ↔
      5000 ^ 2 * (w.hop : ℤ) ≤ ∑ i ∈ Finset.range w.hop, pcm16 (y (ref.data.getD (14 + g * w.hop + i) 0.0)) ^ 2) := by
    intro g hg
    have hin := judged_inside hs hh h0 hk hg
    have hl' : 14 + g * w.hop + w.hop ≤ ref.data.length := by rw [Nat.succ_mul] at hin; omega
    have e : judgedFrame (ref.data.map (· / m)) w.hop g =
        (List.range w.hop).map fun i => pcm16 (y (ref.data.getD (14 + g * w.hop + i) 0.0)) := by
      unfold judgedFrame
      apply List.ext_getElem
      · simp only [List.length_map, List.length_take, List.length_drop, List.length_range]; omega
      · intro i h1 h2
        have hi : i < w.hop := by simpa using h2
        rw [List.getElem_map, List.getElem_take, List.getElem_drop, List.getElem_map, List.getElem_map, List.getElem_range,
          List.getD_eq_getElem?_getD, List.getElem?_eq_getElem (by omega), Option.getD_some, hy1 _ (List.getElem_mem _)]
    rw [loud_exact hh hh2 (by rw [e]; simp) (by
      rw [e]
      intro z hz
      obtain ⟨i, _, rfl⟩ := List.mem_map.mp hz
      exact pcm16_range _), e, List.map_map]
    have key : ∀ (g : Nat → ℤ) n, ((List.range n).map ((fun x => x * x) ∘ g)).sum = ∑ i ∈ Finset.range n, g i ^ 2 := by
      intro g n
      induction n with
      | zero => simp
      | succ n ih => rw [List.range_succ, List.map_append, List.sum_append, ih, Finset.sum_range_succ]; simp [sq]
    rw [key]
  unfold Active
  rw [hl f h2, hl (f - 1) (by omega), hl (f - 2) (by omega)]
  constructor
  · rintro (h | h | h | h)
    · exact .inl h
    · exact .inr ⟨f, by omega, le_rfl, h⟩
    · exact .inr ⟨f - 1, by omega, by omega, h⟩
    · exact .inr ⟨f - 2, by omega, by omega, h⟩
  · rintro (h | ⟨g, g1, g2, h⟩)
    · exact .inl h
    · rcases (by omega : g = f ∨ g = f - 1 ∨ g = f - 2) with rfl | rfl | rfl
      · exact .inr (.inl h)
      · exact .inr (.inr (.inl h))
      · exact .inr (.inr (.inr h))

/-- The hypotheses of this: 40000 samples of full scale. -/
example : let ref : AudioSignal F := ⟨List.replicate 40000 1.0, 16000⟩
    1280 ≤ ref.data.length ∧ 44 ≤ numColumns ref.data.length 1280 320 ∧ (∀ a ∈ ref.data, ∃ x, val a = .fin x ∧ |x| ≤ 2 ^ 20) ∧
    (1.0 : F) ∈ ref.data ∧ (∀ a ∈ ref.data, number a ≤ number (1.0 : F)) ∧ 1 / 2 ^ 40 ≤ |number (1.0 : F)| := by
  intro ref
  have hl : ref.data.length = 40000 := List.length_replicate
  have n1 : number (1.0 : F) = 1 := number_of val_1
  refine ⟨by omega, by rw [hl]; decide, fun a ha => ?_, List.mem_replicate.mpr ⟨by norm_num, rfl⟩, fun a ha => ?_, by rw [n1]; norm_num⟩
  · rw [List.eq_of_mem_replicate ha]; exact ⟨1, val_1, by norm_num⟩
  · rw [List.eq_of_mem_replicate ha]

end ieee

end Visqol
