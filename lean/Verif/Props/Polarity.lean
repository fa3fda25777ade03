import Verif.Props.NoFailureIeee

/-! # Voice activity is measured relative to the largest signed sample (C30 in terms of samples, C81) -/

set_option linter.unusedSectionVars false

namespace Visqol

/-- The 16-bit value of sample `x` of a reference whose largest sample is `M`: `32768 x / M` without its fraction, limited to 16 bits. -/
noncomputable def pcmLevel (M x : ℝ) : ℤ :=
  max (-32768) (min 32767 (if 0 ≤ x / M * 32768 then ⌊x / M * 32768⌋ else ⌈x / M * 32768⌉))

/-- The 16-bit values of the samples `14 + f hop, ..., 14 + f hop + hop - 1` have a root mean square of at least 5000. -/
def LoudSamples (data : List ℝ) (M : ℝ) (hop f : Nat) : Prop :=
  (5000 : ℝ) ^ 2 * hop ≤ ∑ i ∈ Finset.range hop, ((pcmLevel M (data.getD (14 + f * hop + i) 0) : ℤ) : ℝ) ^ 2

theorem pcmLevel_range (M x : ℝ) : -32768 ≤ pcmLevel M x ∧ pcmLevel M x ≤ 32767 := by
  unfold pcmLevel; constructor
  · exact le_max_left _ _
  · exact max_le (by norm_num) (min_le_left _ _)

theorem toPcm_real (M x : ℝ) : toPcm (x / M) = pcmLevel M x := by
  have e : Flt.toI16 (x / M * Flt.ofInt 32768) = pcmLevel M x := by
    show realToInt (-32768) 32767 _ = _
    unfold realToInt realTrunc pcmLevel
    simp only [real_ofInt]
    norm_num
  unfold toPcm
  rw [e]
  dsimp only
  obtain ⟨h1, h2⟩ := pcmLevel_range M x
  have h1' : (-32768 : ℝ) ≤ (pcmLevel M x : ℝ) := by exact_mod_cast h1
  have h2' : (pcmLevel M x : ℝ) ≤ 32767 := by exact_mod_cast h2
  have e2 : (Flt.min (Flt.max (Flt.ofInt (-32768)) ((1.0 : ℝ) * Flt.ofInt 32767)) (Flt.ofInt (pcmLevel M x)) : ℝ) = (pcmLevel M x : ℝ) := by
    simp only [real_min, real_max, real_ofInt, real_lit1]
    rw [max_eq_right (by norm_num), min_eq_right (by push_cast; linarith)]
  rw [e2]
  exact realToInt_intCast h1 h2

theorem sum_judged (M : ℝ) (data : List ℝ) (hop f : Nat) (hl : 14 + (f + 1) * hop ≤ data.length) :
    ((((judgedFrame (data.map (· / M)) hop f).map fun x => x * x).sum : ℤ) : ℝ) =
      ∑ i ∈ Finset.range hop, ((pcmLevel M (data.getD (14 + f * hop + i) 0) : ℤ) : ℝ) ^ 2 := by
  have hl' : 14 + f * hop + hop ≤ data.length := by rw [Nat.succ_mul] at hl; omega
  have e : judgedFrame (data.map (· / M)) hop f = (List.range hop).map fun i => pcmLevel M (data.getD (14 + f * hop + i) 0) := by
    unfold judgedFrame
    apply List.ext_getElem
    · simp only [List.length_map, List.length_take, List.length_drop, List.length_range]; omega
    · intro i h1 h2
      have hi : i < hop := by simpa using h2
      rw [List.getElem_map, List.getElem_take, List.getElem_drop, List.getElem_map, List.getElem_map, List.getElem_range, toPcm_real,
        List.getD_eq_getElem?_getD, List.getElem?_eq_getElem (by omega), Option.getD_some]
  rw [e, List.map_map]
  have key : ∀ (g : Nat → ℤ) n, ((((List.range n).map ((fun x => x * x) ∘ g)).sum : ℤ) : ℝ) = ∑ i ∈ Finset.range n, ((g i : ℤ) : ℝ) ^ 2 := by
    intro g n
    induction n with
    | zero => simp
    | succ n ih => rw [List.range_succ, List.map_append, List.sum_append, Int.cast_add, ih, Finset.sum_range_succ]; simp [sq]
  exact key _ _

theorem loud_samples {M : ℝ} {data : List ℝ} {hop f : Nat} (hh : 0 < hop) (hl : 14 + (f + 1) * hop ≤ data.length) :
    Loud (data.map (· / M)) hop f ↔ LoudSamples data M hop f := by
  unfold Loud LoudSamples
  rw [real_lt, real_sqrt, real_ofInt, real_ofNat, sum_judged M data hop f hl]
  have hh' : (0 : ℝ) < hop := by exact_mod_cast hh
  rw [show (Flt.toOfScientific.ofScientific 50000 true 1 : ℝ) = 5000 by rw [real_sci]; norm_num]
  generalize (∑ i ∈ Finset.range hop, ((pcmLevel M (data.getD (14 + f * hop + i) 0) : ℤ) : ℝ) ^ 2) = S
  rw [decide_eq_false_iff_not, not_lt, Real.le_sqrt' (by norm_num), le_div_iff₀ hh']

theorem normalize_real {data : List ℝ} {M : ℝ} (hM : M ∈ data) (hmax : ∀ x ∈ data, x ≤ M) : normalizeSignal data = .ok (data.map (· / M)) := by
  obtain ⟨m, h1, h2, h3⟩ := extremum_max (List.ne_nil_of_mem hM)
  have : m = M := le_antisymm (hmax m h2) (h3 M hM)
  unfold normalizeSignal
  rw [h1, this]; rfl

/-- The frames that decide about a wideband patch lie inside the signal. -/
theorem judged_inside {len size hop k f : Nat} (hs : size ≤ len) (hh : 0 < hop) (h0 : 0 < size) (hk : 14 + 30 * k + 30 ≤ numColumns len size hop)
    (hf : f < 30 * k + 30) : 14 + (f + 1) * hop ≤ len := by
  have h1 := vad_slice_in_signal hs hh h0 (by omega : 44 ≤ numColumns len size hop)
  refine le_trans ?_ h1
  rw [← Nat.mul_assoc]
  exact Nat.add_le_add_left (Nat.mul_le_mul_right _ (by omega)) _

/-- C30, in terms of the samples of the reference (exact arithmetic): `M` is its largest sample. -/
theorem C30_in_samples (p : Profile) {ref : AudioSignal ℝ} {w : AnalysisWindow ℝ} (hs : w.size ≤ ref.data.length)
    (hh : 0 < w.hop) (h0 : 0 < w.size) (hc : 44 ≤ numColumns ref.data.length w.size w.hop) {M : ℝ} (hM : M ∈ ref.data)
    (hmax : ∀ x ∈ ref.data, x ≤ M) :
    ∃ ix, (PatchCreator.vad 30).indices p (numColumns ref.data.length w.size w.hop) ref w = .ok ix ∧ ∀ k,
      14 + 30 * k ∈ ix ↔ 14 + 30 * k + 30 ≤ numColumns ref.data.length w.size w.hop ∧
        ∃ f, 30 * k ≤ f ∧ f < 30 * k + 30 ∧ (f < 2 ∨ ∃ g, f ≤ g + 2 ∧ g ≤ f ∧ LoudSamples ref.data M w.hop g) := by
  have hn := normalize_real hM hmax
  obtain ⟨ix, hix, _⟩ := (C26_wideband p (m := (⟨numColumns ref.data.length w.size w.hop, []⟩ : Mat ℝ)) hs hh h0 rfl hc).1 _ hn
  refine ⟨ix, hix, fun k => ?_⟩
  rw [C30_kept_iff p hs hh h0 hc hn hix k]
  refine and_congr_right fun hk => exists_congr fun f => and_congr_right fun h1 => and_congr_right fun h2 => ?_
  have hl : ∀ g, g < 30 * k + 30 → (Loud (ref.data.map (· / M)) w.hop g ↔ LoudSamples ref.data M w.hop g) := fun g hg =>
    loud_samples hh (judged_inside hs hh h0 hk hg)
  unfold Active
  rw [hl f h2, hl (f - 1) (by omega), hl (f - 2) (by omega)]
  constructor
  · rintro (h | h | h | h)
    · exact .inl h
    · exact .inr ⟨f, by omega, le_rfl, h⟩
    · exact .inr ⟨f - 1, by omega, by omega, h⟩
    · exact .inr ⟨f - 2, by omega, by omega, h⟩
  · rintro (h | ⟨g, g1, g2, h⟩)
    · exact .inl h
    · rcases (by omega : g = f ∨ g = f - 1 ∨ g = f - 2) with rfl | rfl | rfl
      · exact .inr (.inl h)
      · exact .inr (.inr (.inl h))
      · exact .inr (.inr (.inr h))

/-- C81, exact arithmetic: a reference all of whose samples are negative keeps every patch, however quiet its passages are. -/
theorem C81_negative (p : Profile) {ref : AudioSignal ℝ} {w : AnalysisWindow ℝ} (hs : w.size ≤ ref.data.length)
    (hh : 0 < w.hop) (h0 : 0 < w.size) (hc : 44 ≤ numColumns ref.data.length w.size w.hop) (hneg : ∀ x ∈ ref.data, x < 0) :
    ∃ ix, (PatchCreator.vad 30).indices p (numColumns ref.data.length w.size w.hop) ref w = .ok ix ∧
      ∀ k, 14 + 30 * k + 30 ≤ numColumns ref.data.length w.size w.hop → 14 + 30 * k ∈ ix := by
  have hne : ref.data ≠ [] := by intro h; rw [h, List.length_nil] at hs; omega
  obtain ⟨M, _, hM, hmax⟩ := extremum_max hne
  obtain ⟨ix, hix, hk⟩ := C30_in_samples p hs hh h0 hc hM hmax
  refine ⟨ix, hix, fun k hlen => (hk k).mpr ⟨hlen, 30 * k, le_rfl, by omega, .inr ⟨30 * k, by omega, le_rfl, ?_⟩⟩⟩
  have hl := judged_inside hs hh h0 hlen (f := 30 * k) (by omega)
  rw [Nat.succ_mul] at hl
  have e : ∀ i ∈ Finset.range w.hop, ((pcmLevel M (ref.data.getD (14 + 30 * k * w.hop + i) 0) : ℤ) : ℝ) ^ 2 = 32767 ^ 2 := by
    intro i hi
    rw [Finset.mem_range] at hi
    have hmem : ref.data.getD (14 + 30 * k * w.hop + i) 0 ∈ ref.data := by
      rw [List.getD_eq_getElem?_getD, List.getElem?_eq_getElem (by omega), Option.getD_some]
      exact List.getElem_mem _
    generalize ref.data.getD (14 + 30 * k * w.hop + i) 0 = x at hmem ⊢
    have h1 := hneg M hM
    have h2 : 1 ≤ x / M := by rw [one_le_div_of_neg h1]; exact hmax x hmem
    have h3 : pcmLevel M x = 32767 := by
      unfold pcmLevel
      rw [if_pos (by linarith), min_eq_left (Int.le_floor.mpr (by push_cast; linarith))]
      rfl
    rw [h3]; norm_num
  unfold LoudSamples
  rw [Finset.sum_congr rfl e, Finset.sum_const, Finset.card_range, nsmul_eq_mul]
  have : (0 : ℝ) ≤ w.hop := Nat.cast_nonneg _
  nlinarith

/-- A passage below a seventh of the largest sample is not loud. -/
theorem not_loud {data : List ℝ} {M : ℝ} {hop f : Nat} (hh : 0 < hop) (hM : 0 < M)
    (hq : ∀ i, i < hop → |data.getD (14 + f * hop + i) 0| ≤ M / 7) : ¬ LoudSamples data M hop f := by
  unfold LoudSamples
  rw [not_le]
  have e : ∀ i ∈ Finset.range hop, ((pcmLevel M (data.getD (14 + f * hop + i) 0) : ℤ) : ℝ) ^ 2 ≤ 4682 ^ 2 := by
    intro i hi
    have h1 := hq i (Finset.mem_range.mp hi)
    generalize data.getD (14 + f * hop + i) 0 = x at h1 ⊢
    have h2 : |x / M * 32768| ≤ 4682 := by
      rw [abs_mul, abs_div, abs_of_pos hM, abs_of_pos (by norm_num : (0 : ℝ) < 32768)]
      have : |x| / M ≤ 1 / 7 := by rw [div_le_iff₀ hM]; linarith
      linarith
    have h3 : |pcmLevel M x| ≤ 4682 := by
      unfold pcmLevel
      obtain ⟨a1, a2⟩ := abs_le.mp h2
      generalize x / M * 32768 = y at *
      rw [abs_le]
      constructor
      · refine le_max_of_le_right (le_min (by norm_num) ?_)
        split
        · exact Int.le_floor.mpr (by push_cast; linarith)
        · refine Int.le_of_lt_add_one ?_
          have : (-4682 - 1 : ℤ) < ⌈y⌉ := Int.lt_ceil.mpr (by push_cast; linarith)
          omega
      · refine max_le (by norm_num) ((min_le_right _ _).trans ?_)
        split
        · have : ⌊y⌋ < (4682 + 1 : ℤ) := Int.floor_lt.mpr (by push_cast; linarith)
          omega
        · exact Int.ceil_le.mpr (by push_cast; linarith)
    have h4 : |((pcmLevel M x : ℤ) : ℝ)| ≤ 4682 := by exact_mod_cast h3
    rw [← sq_abs]
    exact pow_le_pow_left₀ (abs_nonneg _) h4 2
  refine (Finset.sum_le_sum e).trans_lt ?_
  rw [Finset.sum_const, Finset.card_range, nsmul_eq_mul]
  have : (0 : ℝ) < hop := by exact_mod_cast hh
  nlinarith

/-- C81, exact arithmetic: the polarity of a reference decides about its patches.  If all its samples are positive and those that judge
patch `k ≥ 1` are at most a seventh of the largest, the patch is dropped; with the polarity of the reference inverted it is kept. -/
theorem C81_polarity (p : Profile) {ref : AudioSignal ℝ} {w : AnalysisWindow ℝ} (hs : w.size ≤ ref.data.length)
    (hh : 0 < w.hop) (h0 : 0 < w.size) {k : Nat} (hk : 1 ≤ k) (hlen : 14 + 30 * k + 30 ≤ numColumns ref.data.length w.size w.hop)
    (hpos : ∀ x ∈ ref.data, 0 < x) {M : ℝ} (hM : M ∈ ref.data)
    (hq : ∀ i x, 14 + (30 * k - 2) * w.hop ≤ i → i < 14 + (30 * k + 30) * w.hop → ref.data[i]? = some x → 7 * x ≤ M) :
    (∃ ix, (PatchCreator.vad 30).indices p (numColumns ref.data.length w.size w.hop) ref w = .ok ix ∧ 14 + 30 * k ∉ ix) ∧
    ∃ ix, (PatchCreator.vad 30).indices p (numColumns ref.data.length w.size w.hop) ⟨ref.data.map (- ·), ref.sampleRate⟩ w = .ok ix ∧
      14 + 30 * k ∈ ix := by
  constructor
  · have hne : ref.data ≠ [] := List.ne_nil_of_mem hM
    obtain ⟨M', _, hM', hmax⟩ := extremum_max hne
    obtain ⟨ix, hix, hk'⟩ := C30_in_samples p hs hh h0 (by omega) hM' hmax
    refine ⟨ix, hix, fun hmem => ?_⟩
    obtain ⟨_, f, f1, f2, f3⟩ := (hk' k).mp hmem
    rcases f3 with h | ⟨g, g1, g2, h⟩
    · omega
    · refine not_loud hh (hpos M' hM') (fun i hi => ?_) h
      have hl := judged_inside hs hh h0 hlen (f := g) (by omega)
      have a1 : (30 * k - 2) * w.hop ≤ g * w.hop := Nat.mul_le_mul_right _ (by omega)
      have a2 : (g + 1) * w.hop ≤ (30 * k + 30) * w.hop := Nat.mul_le_mul_right _ (by omega)
      rw [Nat.succ_mul] at hl a2
      have hget : ref.data[14 + g * w.hop + i]? = some ref.data[14 + g * w.hop + i] := List.getElem?_eq_getElem (by omega)
      rw [List.getD_eq_getElem?_getD, hget, Option.getD_some]
      have b1 := hq _ _ (by omega) (by omega) hget
      have b2 := hpos _ (List.mem_of_getElem? hget)
      have b3 := hmax M hM
      rw [abs_of_pos b2]
      linarith
  · have hl : (ref.data.map (- ·)).length = ref.data.length := List.length_map _
    obtain ⟨ix, h1, h2⟩ := C81_negative p (ref := ⟨ref.data.map (- ·), ref.sampleRate⟩) (w := w) (by rw [hl]; exact hs) hh h0
      (by rw [hl]; omega) (fun x hx => by obtain ⟨y, hy, rfl⟩ := List.mem_map.mp hx; have := hpos y hy; linarith)
    rw [hl] at h1 h2
    exact ⟨ix, h1, h2 k hlen⟩

section ieee
open Ieee
variable {F : Type} [Flt F] [Ieee F]

/-- The largest of finite numbers. -/
theorem extremum_max_ieee {l : List F} (h : l ≠ []) (hf : ∀ a ∈ l, ∃ x, Is a x) :
    ∃ m M, extremum .gt l = some m ∧ m ∈ l ∧ Is m M ∧ ∀ a ∈ l, ∀ x, Is a x → x ≤ M := by
  have key : ∀ (l' : List F) (a : F) (A : ℝ), (∀ b ∈ l', b ∈ l) → a ∈ l → Is a A → ∃ m M, l'.foldl (fun acc x => do
      let m ← acc
      let c ← Flt.partialCmp x m
      some (if c = Ordering.gt then x else m)) (some a) = some m ∧ m ∈ l ∧ Is m M ∧ A ≤ M ∧ ∀ b ∈ l', ∀ x, Is b x → x ≤ M := by
    intro l'
    induction l' with
    | nil => intro a A _ ha hA; exact ⟨a, A, rfl, ha, hA, le_rfl, fun b hb => by cases hb⟩
    | cons b l' ih =>
      intro a A hl ha hA
      obtain ⟨y, hy⟩ := hf b (hl b (by simp))
      rw [List.foldl_cons]
      simp only [Option.bind_eq_bind, Option.bind_some, partialCmp_fin hy hA] at ih ⊢
      have hdet : ∀ x, Is b x → x = y := fun x hx => by have := hx.symm.trans hy; cases this; rfl
      by_cases hc : A < y
      · rw [if_pos (by rw [if_neg hc.not_gt, if_pos hc])]
        obtain ⟨m, M, h1, h2, h3, h4, h5⟩ := ih b y (fun c hc => hl c (by simp [hc])) (hl b (by simp)) hy
        refine ⟨m, M, h1, h2, h3, hc.le.trans h4, fun c hc x hx => ?_⟩
        rcases List.mem_cons.mp hc with rfl | hc
        · rw [hdet x hx]; exact h4
        · exact h5 c hc x hx
      · rw [if_neg (by rw [if_neg hc]; split <;> simp)]
        obtain ⟨m, M, h1, h2, h3, h4, h5⟩ := ih a A (fun c hc => hl c (by simp [hc])) ha hA
        refine ⟨m, M, h1, h2, h3, h4, fun c hc' x hx => ?_⟩
        rcases List.mem_cons.mp hc' with rfl | hc'
        · rw [hdet x hx]; exact (not_lt.mp hc).trans h4
        · exact h5 c hc' x hx
  cases l with
  | nil => exact absurd rfl h
  | cons a l =>
    obtain ⟨A, hA⟩ := hf a (by simp)
    obtain ⟨m, M, h1, h2, h3, _, h5⟩ := key (a :: l) a A (fun b hb => hb) (by simp) hA
    exact ⟨m, M, h1, h2, h3, h5⟩

variable [Libm F]

theorem pcm_beyond {a : F} {x : ℝ} (ha : Is a x) (h1 : 1 ≤ x) (h2 : x ≤ 2 ^ 100) : toPcm a = 32767 := by
  unfold toPcm
  dsimp only
  have hi : ∀ z : Int, |z| ≤ 2 ^ 53 → Is (Flt.ofInt z : F) z := fun z hz => by
    unfold Is; rw [val_ofInt, rnd_int F hz]
  have e : Flt.toI16 (a * Flt.ofInt 32768) = 32767 := by
    have hb : |x * 32768| ≤ 2 ^ 1000 := by
      rw [abs_of_nonneg (by linarith)]
      calc x * 32768 ≤ 2 ^ 100 * 2 ^ 15 := by linarith
        _ = 2 ^ 115 := by rw [← pow_add]
        _ ≤ 2 ^ 1000 := two_pow_mono (by norm_num)
    obtain ⟨y, hy, _⟩ := rnd_acc (F := F) _ hb
    have hy2 : (32768 : ℝ) ≤ y := by
      have := rnd_nat_le (F := F) (n := 32768) (by norm_num) hy (by push_cast; linarith)
      exact_mod_cast this
    rw [Libm.toI16_val _ y]
    · unfold realToInt
      rw [realTrunc_nonneg (by linarith), min_eq_left (Int.le_floor.mpr (by push_cast; linarith))]
      norm_num
    · rw [val_mul, ha, hi 32768 (by norm_num)]
      show rnd F _ = _
      exact_mod_cast hy
  have h3 : Is ((1.0 : F) * Flt.ofInt 32767) 32767 := by
    unfold Is
    rw [val_mul, val_1, hi 32767 (by norm_num)]
    show rnd F _ = _
    have := rnd_int F (k := 32767) (by norm_num)
    rw [one_mul]; exact_mod_cast this
  rw [e, Libm.toI16_val _ 32767]
  · unfold realToInt; rw [show realTrunc 32767 = 32767 by exact_mod_cast realTrunc_intCast 32767]; norm_num
  · have := ((hi (-32768) (by norm_num)).max h3).min (hi 32767 (by norm_num))
    have e : min (max ((-32768 : ℤ) : ℝ) 32767) ((32767 : ℤ) : ℝ) = 32767 := by norm_num
    rw [e] at this
    exact this

/-- A frame whose 16-bit values are all 32767 is loud. -/
theorem full_loud {norm : List F} {hop f : Nat} (hh : 0 < hop) (hh2 : hop ≤ 2 ^ 20) (hj : judgedFrame norm hop f = List.replicate hop 32767) :
    Loud norm hop f := by
  unfold Loud
  rw [hj, List.map_replicate, List.sum_replicate]
  have hh' : (0 : ℝ) < hop := by exact_mod_cast hh
  have a1 : val (Flt.ofInt (hop • (32767 * 32767) : Int) : F) = .fin (hop * 1073676289) := by
    have := rnd_int F (k := hop • (32767 * 32767)) (by
      rw [nsmul_eq_mul, abs_of_nonneg (by positivity)]
      have : (hop : ℤ) ≤ 2 ^ 20 := by exact_mod_cast hh2
      linarith)
    rw [val_ofInt, this]; push_cast; norm_num
  have a2 : val (Flt.ofNat hop : F) = .fin hop := by rw [val_ofNat, rnd_nat F (hh2.trans (by norm_num))]
  have a3 : val (Flt.ofInt (hop • (32767 * 32767) : Int) / Flt.ofNat hop : F) = .fin 1073676289 := by
    have := rnd_int F (k := 1073676289) (by norm_num)
    rw [div_fin _ _ _ _ a1 a2 hh'.ne', mul_div_cancel_left₀ _ hh'.ne']
    exact_mod_cast this
  have a4 : val (Flt.sqrt (Flt.ofInt (hop • (32767 * 32767) : Int) / Flt.ofNat hop) : F) = .fin 32767 := by
    have := rnd_int F (k := 32767) (by norm_num)
    rw [val_sqrt, a3]
    show (if _ then _ else _) = _
    rw [if_neg (by norm_num), show Real.sqrt 1073676289 = 32767 by
      rw [show (1073676289 : ℝ) = 32767 * 32767 by norm_num, Real.sqrt_mul_self (by norm_num)]]
    exact_mod_cast this
  have a5 : val (5000.0 : F) = .fin 5000 := by
    have := val_litnat (F := F) (m := 50000) (e := 1) (k := 5000) (by norm_num) (by norm_num); exact_mod_cast this
  rw [lt_val, a4, a5]
  show decide _ = false
  norm_num

/-- C81 in floating point: a reference all of whose samples are negative (between `-2^20` and `-2^-20`, which includes every file that can
be loaded) keeps every patch. -/
theorem C81_negative_rounded (p : Profile) {ref : AudioSignal F} {w : AnalysisWindow F} (hs : w.size ≤ ref.data.length)
    (hh : 0 < w.hop) (hh2 : w.hop ≤ 2 ^ 20) (h0 : 0 < w.size) (hc : 44 ≤ numColumns ref.data.length w.size w.hop)
    (hneg : ∀ a ∈ ref.data, ∃ x, Is a x ∧ -2 ^ 20 ≤ x ∧ x ≤ -(1 / 2 ^ 20)) :
    ∃ ix, (PatchCreator.vad 30).indices p (numColumns ref.data.length w.size w.hop) ref w = .ok ix ∧
      ∀ k, 14 + 30 * k + 30 ≤ numColumns ref.data.length w.size w.hop → 14 + 30 * k ∈ ix := by
  have hne : ref.data ≠ [] := by intro h; rw [h, List.length_nil] at hs; omega
  obtain ⟨m, M, hm, hmem, hM, hmax⟩ := extremum_max_ieee hne (fun a ha => (hneg a ha).imp fun x hx => hx.1)
  have hMle : M ≤ -(1 / 2 ^ 20) := by
    obtain ⟨x, h1, _, h3⟩ := hneg m hmem
    have := h1.symm.trans hM
    cases this
    exact h3
  have hn : normalizeSignal ref.data = .ok (ref.data.map (· / m)) := by
    unfold normalizeSignal; rw [hm]; rfl
  obtain ⟨ix, hix, _⟩ := (C26_wideband p (m := (⟨numColumns ref.data.length w.size w.hop, []⟩ : Mat F)) hs hh h0 rfl hc).1 _ hn
  refine ⟨ix, hix, fun k hk => (C30_kept_iff p hs hh h0 hc hn hix k).mpr ⟨hk, 30 * k, le_rfl, by omega, .inr (.inl (full_loud hh hh2 ?_))⟩⟩
  have hl := judged_inside hs hh h0 hk (f := 30 * k) (by omega)
  rw [Nat.succ_mul] at hl
  unfold judgedFrame
  rw [List.eq_replicate_iff]
  constructor
  · rw [List.length_map, List.length_take, List.length_drop, List.length_map]; omega
  · intro z hz
    obtain ⟨b, hb, rfl⟩ := List.mem_map.mp hz
    obtain ⟨a, ha, rfl⟩ := List.mem_map.mp (List.mem_of_mem_drop (List.mem_of_mem_take hb))
    obtain ⟨x, h1, h2, h3⟩ := hneg a ha
    have hMneg : M < 0 := lt_of_le_of_lt hMle (by norm_num)
    have hq1 : 1 ≤ x / M := by rw [one_le_div_of_neg hMneg]; exact hmax a ha x h1
    have hq2 : x / M ≤ 2 ^ 40 := by
      rw [div_le_iff_of_neg hMneg]
      have : (2 : ℝ) ^ 40 * M ≤ 2 ^ 40 * -(1 / 2 ^ 20) := mul_le_mul_of_nonneg_left hMle (by norm_num)
      norm_num at this h2 ⊢
      linarith
    obtain ⟨y, hy, hacc⟩ := rnd_acc (F := F) (x / M) (by
      rw [abs_of_nonneg (by linarith)]; exact hq2.trans (two_pow_mono (by norm_num)))
    have hy1 : 1 ≤ y := rnd_one_le hy hq1
    refine pcm_beyond (x := y) ?_ hy1 ?_
    · unfold Is; rw [div_fin _ _ _ _ h1 hM hMneg.ne, hy]
    · have : rnd F (2 ^ 40) = .fin (2 ^ 40) := by
        have := rnd_nat F (n := 2 ^ 40) (by norm_num)
        exact_mod_cast this
      exact (rnd_mono _ _ _ _ hq2 hy this).trans (by norm_num)

theorem pcm_small {a : F} {x : ℝ} (ha : Is a x) (h0 : 0 ≤ x) (h1 : x * 32768 ≤ 4701) : 0 ≤ toPcm a ∧ toPcm a ≤ 4701 := by
  have hi : ∀ z : Int, |z| ≤ 2 ^ 53 → Is (Flt.ofInt z : F) z := fun z hz => by
    unfold Is; rw [val_ofInt, rnd_int F hz]
  obtain ⟨y, hy, _⟩ := rnd_acc (F := F) (x * 32768) (by
    rw [abs_of_nonneg (by linarith)]
    exact h1.trans (le_trans (by norm_num) (two_pow_mono (m := 13) (by norm_num))))
  have r1 : rnd F (4701 : ℝ) = .fin 4701 := by
    have := rnd_int F (k := 4701) (by norm_num); exact_mod_cast this
  have y1 : y ≤ 4701 := rnd_mono _ _ _ _ h1 hy r1
  have y0 : 0 ≤ y := rnd_mono _ _ _ _ (by linarith : 0 ≤ x * 32768) (rnd_zero F) hy
  have e : Flt.toI16 (a * Flt.ofInt 32768) = ⌊y⌋ := by
    rw [Libm.toI16_val _ y]
    · unfold realToInt
      have : ⌊y⌋ ≤ 4701 := Int.floor_le_iff.mpr (by push_cast; linarith)
      have : 0 ≤ ⌊y⌋ := Int.floor_nonneg.mpr y0
      rw [realTrunc_nonneg y0]
      omega
    · rw [val_mul, ha, hi 32768 (by norm_num)]
      show rnd F _ = _
      exact_mod_cast hy
  have f1 : ⌊y⌋ ≤ 4701 := Int.floor_le_iff.mpr (by push_cast; linarith)
  have f0 : 0 ≤ ⌊y⌋ := Int.floor_nonneg.mpr y0
  have h3 : Is ((1.0 : F) * Flt.ofInt 32767) 32767 := by
    unfold Is
    rw [val_mul, val_1, hi 32767 (by norm_num)]
    show rnd F _ = _
    have := rnd_int F (k := 32767) (by norm_num)
    rw [one_mul]; exact_mod_cast this
  have hm := ((hi (-32768) (by norm_num)).max h3).min (hi ⌊y⌋ (by rw [abs_of_nonneg f0]; linarith))
  have f1' : ((⌊y⌋ : ℤ) : ℝ) ≤ 4701 := by exact_mod_cast f1
  have e2 : min (max ((-32768 : ℤ) : ℝ) 32767) ((⌊y⌋ : ℤ) : ℝ) = ((⌊y⌋ : ℤ) : ℝ) := by
    rw [max_eq_right (by norm_num), min_eq_right (by linarith)]
  rw [e2] at hm
  have e3 : toPcm a = ⌊y⌋ := by
    unfold toPcm
    dsimp only
    rw [e, Libm.toI16_val _ _ hm, realToInt_intCast (by omega) (by omega)]
  rw [e3]
  exact ⟨f0, f1⟩

/-- A frame whose 16-bit values are at most 4701 is not loud. -/
theorem not_loud_ieee {norm : List F} {hop f : Nat} (hh : 0 < hop) (hh2 : hop ≤ 2 ^ 20) (hl : (judgedFrame norm hop f).length ≤ hop)
    (hj : ∀ z ∈ judgedFrame norm hop f, 0 ≤ z ∧ z ≤ 4701) : ¬ Loud norm hop f := by
  have hs : ∀ l : List Int, (∀ z ∈ l, 0 ≤ z ∧ z ≤ 4701) → 0 ≤ (l.map fun x => x * x).sum ∧ (l.map fun x => x * x).sum ≤ l.length * 22099401 := by
    intro l
    induction l with
    | nil => intro _; simp
    | cons z l ih =>
      intro h
      obtain ⟨i1, i2⟩ := ih fun z hz => h z (by simp [hz])
      obtain ⟨z1, z2⟩ := h z (by simp)
      rw [List.map_cons, List.sum_cons, List.length_cons]
      push_cast
      constructor <;> nlinarith
  obtain ⟨s0, s1⟩ := hs _ hj
  unfold Loud
  generalize ((judgedFrame norm hop f).map fun x => x * x).sum = S at *
  have hh' : (0 : ℝ) < hop := by exact_mod_cast hh
  have s2 : S ≤ hop * 22099401 := s1.trans (by
    have : ((judgedFrame norm hop f).length : ℤ) ≤ hop := by exact_mod_cast hl
    linarith)
  have s2' : (S : ℝ) ≤ hop * 22099401 := by exact_mod_cast s2
  have s0' : (0 : ℝ) ≤ S := by exact_mod_cast s0
  have a1 : val (Flt.ofInt S : F) = .fin S := by
    rw [val_ofInt, rnd_int F (by
      rw [abs_of_nonneg s0]
      have : (hop : ℤ) ≤ 2 ^ 20 := by exact_mod_cast hh2
      linarith)]
  have a2 : val (Flt.ofNat hop : F) = .fin hop := by rw [val_ofNat, rnd_nat F (hh2.trans (by norm_num))]
  have q1 : (S : ℝ) / hop ≤ 22099401 := by rw [div_le_iff₀ hh']; linarith
  have q0 : 0 ≤ (S : ℝ) / hop := by positivity
  obtain ⟨q, hq, _⟩ := rnd_acc (F := F) ((S : ℝ) / hop) (by
    rw [abs_of_nonneg q0]
    exact q1.trans (le_trans (by norm_num) (two_pow_mono (m := 25) (by norm_num))))
  have r1 : rnd F (22099401 : ℝ) = .fin 22099401 := by
    have := rnd_int F (k := 22099401) (by norm_num); exact_mod_cast this
  have r2 : rnd F (4701 : ℝ) = .fin 4701 := by
    have := rnd_int F (k := 4701) (by norm_num); exact_mod_cast this
  have b1 : q ≤ 22099401 := rnd_mono _ _ _ _ q1 hq r1
  have b0 : 0 ≤ q := rnd_mono _ _ _ _ q0 (rnd_zero F) hq
  have a3 : Is (Flt.ofInt S / Flt.ofNat hop : F) q := by
    unfold Is; rw [div_fin _ _ _ _ a1 a2 hh'.ne', hq]
  have c1 : Real.sqrt q ≤ 4701 := by
    rw [Real.sqrt_le_left (by norm_num)]; norm_num; exact b1
  obtain ⟨t, ht, _⟩ := rnd_acc (F := F) (Real.sqrt q) (by
    rw [abs_of_nonneg (Real.sqrt_nonneg _)]
    exact c1.trans (le_trans (by norm_num) (two_pow_mono (m := 13) (by norm_num))))
  have t1 : t ≤ 4701 := rnd_mono _ _ _ _ c1 ht r2
  have a5 : val (5000.0 : F) = .fin 5000 := by
    have := val_litnat (F := F) (m := 50000) (e := 1) (k := 5000) (by norm_num) (by norm_num); exact_mod_cast this
  rw [Is.lt ((a3.sqrt b0).trans ht) a5, decide_eq_false_iff_not]
  intro h
  exact h (by linarith)

/-- C81, polarity, in floating point: if all samples are positive (between `2^-20` and `2^20`, which includes every positive sample of a file)
and those that judge a patch other than the first are at most a seventh of the largest sample, the patch is dropped, but it is kept if the
polarity of the reference is inverted. -/
theorem C81_polarity_rounded (p : Profile) {ref : AudioSignal F} {w : AnalysisWindow F} (hs : w.size ≤ ref.data.length)
    (hh : 0 < w.hop) (hh2 : w.hop ≤ 2 ^ 20) (h0 : 0 < w.size) {k : Nat} (hk : 1 ≤ k)
    (hlen : 14 + 30 * k + 30 ≤ numColumns ref.data.length w.size w.hop)
    (hpos : ∀ a ∈ ref.data, ∃ x, Is a x ∧ 1 / 2 ^ 20 ≤ x ∧ x ≤ 2 ^ 20) {b : F} (hb : b ∈ ref.data)
    (hq : ∀ i a, 14 + (30 * k - 2) * w.hop ≤ i → i < 14 + (30 * k + 30) * w.hop → ref.data[i]? = some a → 7 * number a ≤ number b) :
    (∃ ix, (PatchCreator.vad 30).indices p (numColumns ref.data.length w.size w.hop) ref w = .ok ix ∧ 14 + 30 * k ∉ ix) ∧
    ∃ ix, (PatchCreator.vad 30).indices p (numColumns ref.data.length w.size w.hop) ⟨ref.data.map (- ·), ref.sampleRate⟩ w = .ok ix ∧
      14 + 30 * k ∈ ix := by
  have num : ∀ {a : F} {x : ℝ}, Is a x → number a = x := fun h => by unfold number; rw [h]
  constructor
  · have hne : ref.data ≠ [] := List.ne_nil_of_mem hb
    obtain ⟨m, M, hm, hmem, hM, hmax⟩ := extremum_max_ieee hne (fun a ha => (hpos a ha).imp fun x hx => hx.1)
    have hMge : 1 / 2 ^ 20 ≤ M := by
      obtain ⟨x, h1, h2, _⟩ := hpos m hmem
      have := h1.symm.trans hM
      cases this
      exact h2
    have hMp : 0 < M := lt_of_lt_of_le (by norm_num) hMge
    have hn : normalizeSignal ref.data = .ok (ref.data.map (· / m)) := by
      unfold normalizeSignal; rw [hm]; rfl
    obtain ⟨ix, hix, _⟩ := (C26_wideband p (m := (⟨numColumns ref.data.length w.size w.hop, []⟩ : Mat F)) hs hh h0 rfl (by
      show 44 ≤ numColumns ref.data.length w.size w.hop; omega)).1 _ hn
    refine ⟨ix, hix, fun hin => ?_⟩
    obtain ⟨_, f, f1, f2, f3⟩ := (C30_kept_iff p hs hh h0 (by omega) hn hix k).mp hin
    have quiet : ∀ g, 30 * k - 2 ≤ g → g < 30 * k + 30 → ¬ Loud (ref.data.map (· / m)) w.hop g := by
      intro g g1 g2
      have a1 : (30 * k - 2) * w.hop ≤ g * w.hop := Nat.mul_le_mul_right _ g1
      have a2 : (g + 1) * w.hop ≤ (30 * k + 30) * w.hop := Nat.mul_le_mul_right _ (by omega)
      rw [Nat.succ_mul] at a2
      refine not_loud_ieee hh hh2 (by unfold judgedFrame; simp) fun z hz => ?_
      unfold judgedFrame at hz
      obtain ⟨c, hc, rfl⟩ := List.mem_map.mp hz
      obtain ⟨i, hi⟩ := List.getElem?_of_mem hc
      have hi' : i < w.hop := by
        by_contra hcon
        rw [List.getElem?_take_eq_none (by omega)] at hi
        cases hi
      rw [List.getElem?_take_of_lt hi', List.getElem?_drop, List.getElem?_map] at hi
      obtain ⟨a, ha, rfl⟩ := Option.map_eq_some_iff.mp hi
      have k1 := hq _ a (by omega) (by omega) ha
      obtain ⟨x, x1, x2, x3⟩ := hpos a (List.mem_of_getElem? ha)
      obtain ⟨B, b1, _, _⟩ := hpos b hb
      rw [num x1, num b1] at k1
      have k2 := hmax b hb B b1
      have hxp : 0 < x := lt_of_lt_of_le (by norm_num) x2
      have u1 : x / M ≤ 1 / 7 := by rw [div_le_iff₀ hMp]; linarith
      have u0 : 0 ≤ x / M := by positivity
      obtain ⟨y, hy, hye⟩ := rnd_err F (x := x / M) (B := 1) (by rw [abs_of_nonneg u0]; linarith) le_rfl (one_le_pow₀ (by norm_num))
      have y0 : 0 ≤ y := rnd_mono _ _ _ _ u0 (rnd_zero F) hy
      have y1 := (abs_le.mp hye).2
      refine pcm_small (x := y) ?_ y0 ?_
      · unfold Is; rw [div_fin _ _ _ _ x1 hM hMp.ne', hy]
      · norm_num at y1 ⊢; linarith
    rcases f3 with h | h | h | h
    · omega
    · exact quiet f (by omega) f2 h
    · exact quiet (f - 1) (by omega) (by omega) h
    · exact quiet (f - 2) (by omega) (by omega) h
  · have hl : (ref.data.map (- ·)).length = ref.data.length := List.length_map _
    obtain ⟨ix, h1, h2⟩ := C81_negative_rounded p (ref := ⟨ref.data.map (- ·), ref.sampleRate⟩) (w := w) (by rw [hl]; exact hs) hh hh2 h0
      (by rw [hl]; omega) (fun a ha => by
        obtain ⟨c, hc, rfl⟩ := List.mem_map.mp ha
        obtain ⟨x, x1, x2, x3⟩ := hpos c hc
        refine ⟨-x, ?_, by linarith, by linarith⟩
        unfold Is
        rw [val_neg, x1]; rfl)
    rw [hl] at h1 h2
    exact ⟨ix, h1, h2 k hlen⟩

end ieee

/-- The hypotheses of `C81_polarity` (and of `C30_in_samples`): 5000 samples of full scale followed by 25000 of a hundredth, all positive. -/
example (p : Profile) : let ref : AudioSignal ℝ := ⟨List.replicate 5000 1 ++ List.replicate 25000 (1 / 100), 16000⟩
    let w : AnalysisWindow ℝ := ⟨1280, 0.25⟩
    (∃ ix, (PatchCreator.vad 30).indices p (numColumns ref.data.length w.size w.hop) ref w = .ok ix ∧ 44 ∉ ix) ∧
    ∃ ix, (PatchCreator.vad 30).indices p (numColumns ref.data.length w.size w.hop) ⟨ref.data.map (- ·), ref.sampleRate⟩ w = .ok ix ∧ 44 ∈ ix := by
  intro ref w
  have hop : w.hop = 320 := by rw [hop_quarter (w := w) rfl (by show 1280 < _; norm_num), show w.size = 1280 from rfl]
  have hl : ref.data.length = 30000 := by show (_ ++ _ : List ℝ).length = _; rw [List.length_append, List.length_replicate, List.length_replicate]
  have hsz : w.size = 1280 := rfl
  refine C81_polarity p (k := 1) (M := 1) (by omega) (by omega) (by omega) le_rfl (by rw [hl, hop, hsz]; decide) ?_ ?_ ?_
  · intro x hx
    rcases List.mem_append.mp hx with h | h <;> rw [List.eq_of_mem_replicate h] <;> norm_num
  · exact List.mem_append_left _ (List.mem_replicate.mpr ⟨by norm_num, rfl⟩)
  · intro i x h1 h2 h3
    rw [hop] at h1
    rw [show ref.data = List.replicate 5000 (1 : ℝ) ++ List.replicate 25000 (1 / 100) from rfl,
      List.getElem?_append_right (by rw [List.length_replicate]; omega)] at h3
    rw [List.eq_of_mem_replicate (List.mem_of_getElem? h3)]
    norm_num

open Ieee in
/-- The hypotheses of `C81_negative_rounded` in double precision: 30000 samples of `-1`. -/
example (p : Profile) : let ref : AudioSignal B64 := ⟨List.replicate 30000 (-1.0), 16000⟩
    let w : AnalysisWindow B64 := AnalysisWindow.mk' 16000 0.25 0.08
    ∃ ix, (PatchCreator.vad 30).indices p (numColumns ref.data.length w.size w.hop) ref w = .ok ix ∧ 14 ∈ ix ∧ 44 ∈ ix := by
  intro ref w
  obtain ⟨f1, f2, _⟩ := ieee_window_facts (F := B64) (sr := 16000) (by norm_num) (by norm_num)
  have f1 : w.size = 1280 := f1
  have f2 : w.hop = 320 := f2
  have hl : ref.data.length = 30000 := List.length_replicate
  have hc : numColumns ref.data.length w.size w.hop = 90 := by rw [hl, f1, f2]; decide
  obtain ⟨ix, h1, h2⟩ := C81_negative_rounded p (ref := ref) (w := w) (by omega) (by omega) (by rw [f2]; norm_num) (by omega) (by omega) (fun a ha => by
    rw [List.eq_of_mem_replicate ha]
    refine ⟨-1, ?_, by norm_num, by norm_num⟩
    show val (-(1.0 : B64)) = _
    rw [val_neg, val_1]; rfl)
  exact ⟨ix, h1, h2 0 (by omega), h2 1 (by omega)⟩

open Ieee in
/-- The hypotheses of `C81_polarity_rounded` in double precision: 5000 samples of 100 followed by 25000 of 1. -/
example (p : Profile) : let ref : AudioSignal B64 := ⟨List.replicate 5000 100.0 ++ List.replicate 25000 1.0, 16000⟩
    let w : AnalysisWindow B64 := AnalysisWindow.mk' 16000 0.25 0.08
    (∃ ix, (PatchCreator.vad 30).indices p (numColumns ref.data.length w.size w.hop) ref w = .ok ix ∧ 44 ∉ ix) ∧
    ∃ ix, (PatchCreator.vad 30).indices p (numColumns ref.data.length w.size w.hop) ⟨ref.data.map (- ·), ref.sampleRate⟩ w = .ok ix ∧ 44 ∈ ix := by
  intro ref w
  obtain ⟨f1, f2, _⟩ := ieee_window_facts (F := B64) (sr := 16000) (by norm_num) (by norm_num)
  have f1 : w.size = 1280 := f1
  have f2 : w.hop = 320 := f2
  have h100 : val (100.0 : B64) = .fin 100 := by
    have := val_litnat (F := B64) (m := 1000) (e := 1) (k := 100) (by norm_num) (by norm_num); exact_mod_cast this
  have hl : ref.data.length = 30000 := by show (_ ++ _ : List B64).length = _; rw [List.length_append, List.length_replicate, List.length_replicate]
  refine C81_polarity_rounded p (k := 1) (b := 100.0) (by omega) (by omega) (by rw [f2]; norm_num) (by omega) le_rfl (by rw [hl, f1, f2]; decide) ?_ ?_ ?_
  · intro a ha
    rcases List.mem_append.mp ha with h | h <;> rw [List.eq_of_mem_replicate h]
    · exact ⟨100, h100, by norm_num, by norm_num⟩
    · exact ⟨1, val_1, by norm_num, by norm_num⟩
  · exact List.mem_append_left _ (List.mem_replicate.mpr ⟨by norm_num, rfl⟩)
  · intro i a h1 h2 h3
    rw [f2] at h1
    rw [show ref.data = List.replicate 5000 (100.0 : B64) ++ List.replicate 25000 1.0 from rfl,
      List.getElem?_append_right (by rw [List.length_replicate]; omega)] at h3
    rw [List.eq_of_mem_replicate (List.mem_of_getElem? h3)]
    have n1 : number (100.0 : B64) = 100 := by unfold number; rw [h100]
    have n2 : number (1.0 : B64) = 1 := by unfold number; rw [val_1]
    rw [n1, n2]; norm_num

end Visqol
