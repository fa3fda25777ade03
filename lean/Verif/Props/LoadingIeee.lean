import Verif.Lemmas.IeeeLoad
import Verif.Props.NoFailureIeee
import Verif.Props.Manager
import Verif.Props.SilentReference

/-! # C18 and C74 for files in floating point -/

set_option linter.unusedSectionVars false

namespace Visqol
open Ieee
variable {F : Type} [Flt F] [Ieee F] [Libm F]

/-- C18, floating point: every mono sample is the exact channel average of its frame up to `(c + 1) / 2^49`, where `c` is the number of channels. -/
theorem C18_downmix_rounded (c sr n : Nat) (s : List Int) (hc : 0 < c) (hc2 : c < 65536) (hs : ∀ x ∈ s, IsI16 x) (hn : s.length = n * c) :
    ∃ data, loadAsMono (F := F) (.wav c sr 16 (some s)) = .ok ⟨data, sr⟩ ∧ data.length = n ∧
      ∀ i < n, ∃ a y, data[i]? = some a ∧ val a = .fin y ∧ |y - (((s.drop (i * c)).take c).map fun x : Int => (x : ℝ) / 32767).sum / c| ≤ (c + 1) / 2 ^ 49 ∧
        |(((s.drop (i * c)).take c).map fun x : Int => (x : ℝ) / 32767).sum / c| ≤ 32768 / 32767 := by
  obtain ⟨data, h1, h2, h3⟩ := C18_downmix (F := F) c sr n s hc hs hn
  refine ⟨data, h1, h2, fun i hi => ?_⟩
  have hlen : i * c + c ≤ s.length := by
    rw [hn]
    calc i * c + c = (i + 1) * c := by ring
      _ ≤ n * c := Nat.mul_le_mul_right _ (by omega)
  have hl : ((s.drop (i * c)).take c).length = c := by rw [List.length_take, List.length_drop]; omega
  obtain ⟨y, hy, e, b⟩ := mean_near (F := F) (s := (s.drop (i * c)).take c)
    (fun x hx => hs x (List.mem_of_mem_drop (List.mem_of_mem_take hx))) (by omega) (by omega)
  rw [hl] at hy e b
  exact ⟨_, y, h3 i hi, hy, e, b⟩

/-- Three frames of stereo samples in double precision. -/
example : ∃ data, loadAsMono (F := B64) (.wav 2 8000 16 (some [1, 3, 32767, -32768, 100, -100])) = .ok ⟨data, 8000⟩ ∧ data.length = 3 := by
  obtain ⟨data, h1, h2, _⟩ := C18_downmix_rounded (F := B64) 2 8000 3 [1, 3, 32767, -32768, 100, -100] (by norm_num) (by norm_num)
    (by unfold IsI16; intro x hx; fin_cases hx <;> norm_num) rfl
  exact ⟨data, h1, h2⟩

/-- The sum of the 16 bit samples of frame `j` of a file with `c` channels. -/
def frameSum (c : Nat) (s : List Int) (j : Nat) : Int := ((s.drop (j * c)).take c).sum

theorem map_div_sum (l : List Int) : (l.map fun x : Int => (x : ℝ) / 32767).sum = (l.sum : ℝ) / 32767 := by
  induction l with
  | nil => simp
  | cons a l ih => rw [List.map_cons, List.sum_cons, ih, List.sum_cons]; push_cast; ring

/-- A 16 bit file is an ordinary signal, and a frame that does not add up to zero is audible. -/
theorem load_ordinary {c sr n : Nat} {s : List Int} (hc : 0 < c) (hc2 : c < 65536) (hs : ∀ x ∈ s, IsI16 x) (hn : s.length = n * c) :
    ∃ sig : AudioSignal F, loadAsMono (.wav c sr 16 (some s)) = .ok sig ∧ sig.sampleRate = sr ∧ sig.data.length = n ∧ OrdinarySamples sig ∧
      ∀ k j, k ≤ j → j < n → frameSum c s j ≠ 0 → SoundFrom k sig := by
  obtain ⟨data, h1, h2, h3⟩ := C18_downmix_rounded (F := F) c sr n s hc hc2 hs hn
  have c1 : (1 : ℝ) ≤ c := by exact_mod_cast hc
  have c2 : (c : ℝ) ≤ 65535 := by exact_mod_cast (by omega : c ≤ 65535)
  have hsm : ((c : ℝ) + 1) / 2 ^ 49 ≤ 1 / 2 ^ 33 := by rw [div_le_div_iff₀ (by positivity) (by positivity)]; norm_num; linarith
  refine ⟨_, h1, rfl, h2, fun a ha => ?_, fun k j hk hj hz => ?_⟩
  · obtain ⟨i, hi, e⟩ := List.getElem_of_mem ha
    change i < data.length at hi
    obtain ⟨a', y, ea, hy, d, b⟩ := h3 i (by omega)
    rw [List.getElem?_eq_getElem hi] at ea
    change data[i] = a at e
    rw [e] at ea
    cases ea
    refine ⟨y, hy, ?_⟩
    have := abs_add_le (y - (((s.drop (i * c)).take c).map fun x : Int => (x : ℝ) / 32767).sum / c)
      ((((s.drop (i * c)).take c).map fun x : Int => (x : ℝ) / 32767).sum / c)
    rw [sub_add_cancel] at this
    norm_num at *
    linarith
  · obtain ⟨a, y, ea, hy, d, _⟩ := h3 j hj
    refine ⟨a, ?_, y, hy, ?_⟩
    · refine List.mem_of_getElem? (i := j - k) ?_
      rw [List.getElem?_drop, show k + (j - k) = j by omega]
      exact ea
    · rw [map_div_sum] at d
      have hq : (1 : ℝ) ≤ |(frameSum c s j : ℝ)| := by exact_mod_cast Int.one_le_abs hz
      have he : |((((s.drop (j * c)).take c).sum : ℤ) : ℝ) / 32767 / c| = |(frameSum c s j : ℝ)| / (32767 * c) := by
        rw [abs_div, abs_div, abs_of_pos (by linarith : (0 : ℝ) < c), show |(32767 : ℝ)| = 32767 by norm_num, div_div]
        rfl
      have hlow : 1 / 2 ^ 32 ≤ |((((s.drop (j * c)).take c).sum : ℤ) : ℝ) / 32767 / c| := by
        rw [he, div_le_div_iff₀ (by norm_num) (by positivity)]
        norm_num
        linarith
      have := abs_add_le (((((s.drop (j * c)).take c).sum : ℤ) : ℝ) / 32767 / c - y) y
      rw [sub_add_cancel, abs_sub_comm] at this
      norm_num at *
      linarith

variable [RustFft F] [BoundedFft F]

/-- C74 for files, fullband: two 16 bit files of the same sample rate. -/
theorem C74_run_fullband (p : Profile) {world : World F} {m : Manager F} {r d path : String} {cr cd sr nr nd nb radius : Nat} {s t : List Int}
    (hr : world.wav r = .wav cr sr 16 (some s)) (hd : world.wav d = .wav cd sr 16 (some t))
    (hcr : 0 < cr ∧ cr < 65536) (hcd : 0 < cd ∧ cd < 65536) (hs : ∀ x ∈ s, IsI16 x) (ht : ∀ x ∈ t, IsI16 x)
    (hns : s.length = nr * cr) (hnt : t.length = nd * cd) (h1k : 1000 ≤ sr) (h1m : sr ≤ 1000000)
    (hm : Manager.new world nb (.fullband path) radius = .ok m) (hnb : 0 < nb) (hnb2 : nb ≤ 64)
    (hmap : ∀ v : List F, v.length = nb → (∀ a ∈ v, ∃ x, val a = .fin x ∧ |x| ≤ 2 ^ 18) → ∃ q, m.mapper.predict v = .ok q ∧ val q ≠ .nan)
    (hsmall : 2 * (nr + nd) + 30 * radius < 2147483647) {j : Nat} (hj1 : nr / 2 ≤ j) (hj2 : j < nd) (hj : frameSum cd t j ≠ 0)
    (hd1 : SmallDrift sr nr) (hd2 : SmallDrift sr (nd + nr / 2)) (href : 51 ≤ columnCount sr nr)
    (hdeg : nr / 2 + windowSamples sr ≤ nd) (huse : 19 ≤ columnCount sr (nd - nr / 2))
    (hreach : columnCount sr nr ≤ columnCount sr (nd - nr / 2) + radius * 20 + 21) :
    ∃ m' res, m.run p world r d = .ok (m', res) ∧ FiniteScores res := by
  obtain ⟨ref, l1, r1, n1, o1, _⟩ := load_ordinary (F := F) (sr := sr) hcr.1 hcr.2 hs hns
  obtain ⟨deg, l2, r2, n2, o2, s2⟩ := load_ordinary (F := F) (sr := sr) hcd.1 hcd.2 ht hnt
  rw [C16_same_rate (by rw [hr]; exact l1) (by rw [hd]; exact l2) (by rw [r1, r2])]
  have hf : m.patchCreator = .image 20 ∧ m.searchWindow = radius ∧ m.numBands = nb ∧ m.filterBank.minFreq = 50.0 := by
    obtain ⟨v, _, hm⟩ := bind_ok hm
    cases hm
    exact ⟨rfl, rfl, rfl, rfl⟩
  obtain ⟨f1, f2, f3, f4⟩ := hf
  subst r1 f3 f2 n1 n2
  exact C74_fullband_finite p m f1 hnb hnb2 f4 hmap r2.symm h1k h1m hsmall o1 o2 (s2 _ j hj1 hj2 hj) hd1 hd2 href hdeg huse hreach

/-- C74 for files, wideband. -/
theorem C74_run_wideband (p : Profile) {world : World F} {m : Manager F} {r d : String} {cr cd sr nr nd nb radius : Nat} {s t : List Int} {u : Bool}
    (hr : world.wav r = .wav cr sr 16 (some s)) (hd : world.wav d = .wav cd sr 16 (some t))
    (hcr : 0 < cr ∧ cr < 65536) (hcd : 0 < cd ∧ cd < 65536) (hs : ∀ x ∈ s, IsI16 x) (ht : ∀ x ∈ t, IsI16 x)
    (hns : s.length = nr * cr) (hnt : t.length = nd * cd) (h1k : 1000 ≤ sr) (h1m : sr ≤ 1000000)
    (hm : Manager.new world nb (.wideband u) radius = .ok m) (hnb : 0 < nb) (hnb2 : nb ≤ 64)
    (hsmall : 2 * (nr + nd) + 30 * radius < 2147483647) {j : Nat} (hj1 : nr / 2 ≤ j) (hj2 : j < nd) (hj : frameSum cd t j ≠ 0)
    (hd1 : SmallDrift sr nr) (hd2 : SmallDrift sr (nd + nr / 2)) {k f : Nat} (hk1 : 1 ≤ k) (hk : 14 + 30 * k + 30 ≤ columnCount sr nr)
    (hf : 30 * k ≤ f ∧ f < 30 * k + 30)
    (ha : ∃ (sig : AudioSignal F) (norm : List F), loadAsMono (world.wav r) = .ok sig ∧ normalizeSignal sig.data = .ok norm ∧ Active norm (windowSamples sr / 4) f)
    (hdeg : nr / 2 + windowSamples sr ≤ nd) (huse : 14 + 30 * k ≤ columnCount sr (nd - nr / 2) + 15)
    (hreach : columnCount sr nr ≤ columnCount sr (nd - nr / 2) + radius * 30 + 30) :
    ∃ m' res, m.run p world r d = .ok (m', res) ∧ FiniteScores res := by
  obtain ⟨ref, l1, r1, n1, o1, _⟩ := load_ordinary (F := F) (sr := sr) hcr.1 hcr.2 hs hns
  obtain ⟨deg, l2, r2, n2, o2, s2⟩ := load_ordinary (F := F) (sr := sr) hcd.1 hcd.2 ht hnt
  rw [C16_same_rate (by rw [hr]; exact l1) (by rw [hd]; exact l2) (by rw [r1, r2])]
  have hf' : m.patchCreator = .vad 30 ∧ m.searchWindow = radius ∧ m.numBands = nb ∧ m.filterBank.minFreq = 50.0 ∧ m.mapper = .speech (!u) := by
    cases hm
    exact ⟨rfl, rfl, rfl, rfl, rfl⟩
  obtain ⟨f1, f2, f3, f4, f5⟩ := hf'
  obtain ⟨sig, norm, e1, e2, e3⟩ := ha
  rw [hr, l1] at e1
  cases e1
  subst r1 f3 f2 n1 n2
  exact C74_wideband_finite p m f1 hnb hnb2 f4 f5 r2.symm h1k h1m hsmall o1 o2 (s2 _ j hj1 hj2 hj) hd1 hd2 e2 hk1 hk hf e3 hdeg huse hreach

/-- C47 and C74: in fullband mode a silent reference file against an ordinary degraded file always gets a score, and the similarity is
exactly 1. -/
theorem C47_silent_scored [NanFft F] (p : Profile) {world : World F} {m : Manager F} {r d path : String} {cr cd sr nr nd nb radius : Nat} {s t : List Int}
    (hr : world.wav r = .wav cr sr 16 (some s)) (hd : world.wav d = .wav cd sr 16 (some t))
    (hcr : 0 < cr ∧ cr < 65536) (hcd : 0 < cd ∧ cd < 65536) (hs : ∀ x ∈ s, x = 0) (ht : ∀ x ∈ t, IsI16 x)
    (hns : s.length = nr * cr) (hnt : t.length = nd * cd) (h1k : 1000 ≤ sr) (h1m : sr ≤ 1000000)
    (hm : Manager.new world nb (.fullband path) radius = .ok m) (hnb : 0 < nb) (hnb2 : nb ≤ 64) (hrad : 1 ≤ radius)
    (hmap : ∀ v : List F, v.length = nb → (∀ a ∈ v, ∃ x, val a = .fin x ∧ |x| ≤ 2 ^ 18) → ∃ q, m.mapper.predict v = .ok q ∧ val q ≠ .nan)
    (hsmall : 2 * (nr + nd) + 30 * radius < 2147483647) {j : Nat} (hj1 : nr / 2 ≤ j) (hj2 : j < nd) (hj : frameSum cd t j ≠ 0)
    (hd1 : SmallDrift sr nr) (hd2 : SmallDrift sr (nd + nr / 2)) (href : 51 ≤ columnCount sr nr)
    (hdeg : nr / 2 + windowSamples sr ≤ nd) (huse : 19 ≤ columnCount sr (nd - nr / 2))
    (hreach : columnCount sr nr ≤ columnCount sr (nd - nr / 2) + radius * 20 + 21) :
    ∃ m' res, m.run p world r d = .ok (m', res) ∧ FiniteScores res ∧ val res.vnsim = .fin 1 ∧ ∀ a ∈ res.fvnsim, val a = .fin 1 := by
  obtain ⟨m', res, h1, h2⟩ := C74_run_fullband p hr hd hcr hcd (fun x hx => by rw [hs x hx]; unfold IsI16; omega) ht hns hnt h1k h1m hm hnb hnb2
    hmap hsmall hj1 hj2 hj hd1 hd2 href hdeg huse hreach
  have e1 : s.length / cr = nr := by rw [hns]; exact Nat.mul_div_cancel _ hcr.1
  have e2 : t.length / cd = nd := by rw [hnt]; exact Nat.mul_div_cancel _ hcd.1
  have hnr : 50 ≤ nr := by
    have := Nat.div_le_self (nr - windowSamples sr) (windowSamples sr / 4)
    unfold columnCount at href; omega
  obtain ⟨h3, h4⟩ := C47_run hr hd hs hm hrad (by omega) (by omega) (by omega) hcr.2 hcd.2 (by omega) (by rw [e1, e2]; omega) (by rw [e1]; omega)
    (by rw [e1, e2]; exact hd2) h1
  exact ⟨m', res, h1, h2, h3, h4⟩

/-! ## Examples -/

theorem predict_three {m : Manager B64} (hm : m.mapper = .svr ⟨32, fun _ => some (some 3.0)⟩) (v : List B64) (hv : v.length = 32) :
    ∃ q, m.mapper.predict v = .ok q ∧ val q ≠ .nan := by
  refine ⟨Flt.clamp 3.0 1.0 5.0, ?_, ?_⟩
  · rw [hm]
    show (svrPredict _ v >>= _) = _
    unfold svrPredict
    rw [if_neg (by show ¬ 32 < _; omega)]
    rfl
  · obtain ⟨y, hy, _⟩ := clamp_num (x := (3.0 : B64)) (by
      have := val_litnat (F := B64) (m := 30) (e := 1) (k := 3) (by norm_num) (by norm_num)
      rw [this]; exact fun h => by cases h)
    rw [hy]; exact fun h => by cases h

theorem frameSum_replicate {n : Nat} {z : Int} {j : Nat} (h : j < n) : frameSum 1 (List.replicate n z) j = z := by
  unfold frameSum
  rw [List.drop_replicate, List.take_replicate, List.sum_replicate, show min 1 (n - j * 1) = 1 by omega, one_smul]

/-- The hypotheses of `C74_run_fullband` and `C47_silent_scored`: a file of a second at 16 kHz, silent or not, against a steady level. -/
example (p : Profile) (world : World B64) (z : Int) (hz : IsI16 z) (hr : world.wav "ref.wav" = .wav 1 16000 16 (some (List.replicate 40000 z)))
    (hd : world.wav "deg.wav" = .wav 1 16000 16 (some (List.replicate 41000 1000))) (hw : world.svr "model.txt" = some ⟨32, fun _ => some (some 3.0)⟩) :
    ∃ m, Manager.new world 32 (.fullband "model.txt") 60 = .ok m ∧ (∃ m' res, m.run p world "ref.wav" "deg.wav" = .ok (m', res) ∧ FiniteScores res) ∧
      (z = 0 → ∃ m' res, m.run p world "ref.wav" "deg.wav" = .ok (m', res) ∧ val res.vnsim = .fin 1) := by
  have hm : Manager.new world 32 (.fullband "model.txt") 60 =
      .ok ⟨32, 60, .image 20, .svr ⟨32, fun _ => some (some 3.0)⟩, FilterBank.new 32 50.0⟩ := by
    unfold Manager.new
    simp only [hw, expect, ok_bind]
  have h16 : ∀ x ∈ List.replicate 41000 (1000 : Int), IsI16 x := fun x hx => by rw [List.eq_of_mem_replicate hx]; unfold IsI16; omega
  have hj : frameSum 1 (List.replicate 41000 1000) 40000 ≠ 0 := by rw [frameSum_replicate (by norm_num)]; norm_num
  refine ⟨_, hm, C74_run_fullband p hr hd (by norm_num) (by norm_num) (fun x hx => by rw [List.eq_of_mem_replicate hx]; exact hz) h16
    (nr := 40000) (nd := 41000) (by rw [List.length_replicate]) (by rw [List.length_replicate]) (by norm_num) (by norm_num) hm (by norm_num) (by norm_num) (fun v hv _ => predict_three rfl v hv)
    (by norm_num) (by norm_num) (j := 40000) (by norm_num) hj ?_ ?_ ?_ ?_ ?_ ?_, fun h0 => ?_⟩
  any_goals unfold SmallDrift
  any_goals unfold columnCount
  any_goals unfold windowSamples
  any_goals norm_num
  obtain ⟨m', res, h1, _, h2, _⟩ := C47_silent_scored p hr hd (by norm_num) (by norm_num) (fun x hx => by rw [List.eq_of_mem_replicate hx]; exact h0) h16
    (nr := 40000) (nd := 41000) (by rw [List.length_replicate]) (by rw [List.length_replicate]) (by norm_num) (by norm_num) hm (by norm_num) (by norm_num) (by norm_num) (fun v hv _ => predict_three rfl v hv)
    (by norm_num) (by norm_num) (j := 40000) (by norm_num) hj (by unfold SmallDrift columnCount windowSamples; norm_num)
    (by unfold SmallDrift columnCount windowSamples; norm_num) (by unfold columnCount windowSamples; norm_num) (by unfold windowSamples; norm_num)
    (by unfold columnCount windowSamples; norm_num) (by unfold columnCount windowSamples; norm_num)
  exact ⟨m', res, h1, h2⟩

/-- The hypotheses of `C74_run_wideband`: a reference at full scale. -/
theorem full_scale_run (p : Profile) (world : World B64) (u : Bool) (hr : world.wav "ref.wav" = .wav 1 16000 16 (some (List.replicate 40000 32767)))
    (hd : world.wav "deg.wav" = .wav 1 16000 16 (some (List.replicate 41000 1000))) :
    ∃ m, Manager.new world 21 (.wideband u) 60 = .ok m ∧ ∃ m' res, m.run p world "ref.wav" "deg.wav" = .ok (m', res) ∧ FiniteScores res := by
  have h16 : ∀ {n : Nat} {z : Int}, IsI16 z → ∀ x ∈ List.replicate n z, IsI16 x := fun hz x hx => by rw [List.eq_of_mem_replicate hx]; exact hz
  have hj : frameSum 1 (List.replicate 41000 1000) 40000 ≠ 0 := by rw [frameSum_replicate (by norm_num)]; norm_num
  have ha : ∃ (sig : AudioSignal B64) (norm : List B64), loadAsMono (world.wav "ref.wav") = .ok sig ∧ normalizeSignal sig.data = .ok norm ∧
      Active norm (windowSamples 16000 / 4) 30 := by
    obtain ⟨data, d1, d2, d3⟩ := C18_downmix (F := B64) 1 16000 40000 (List.replicate 40000 32767) (by norm_num) (h16 (by unfold IsI16; omega))
      (by rw [List.length_replicate])
    have e : data = List.replicate 40000 (Flt.sum [Flt.ofInt 32767 / 32767.0] / Flt.ofNat 1) := by
      apply List.ext_getElem?
      intro i
      by_cases hi : i < 40000
      · rw [d3 i hi, List.drop_replicate, List.take_replicate, show min 1 (40000 - i * 1) = 1 by omega, List.getElem?_replicate, if_pos hi]
        rfl
      · rw [List.getElem?_eq_none (by omega), List.getElem?_eq_none (by rw [List.length_replicate]; omega)]
    have hv : val (Flt.sum [Flt.ofInt 32767 / 32767.0] / Flt.ofNat 1 : B64) = .fin 1 := by
      have a1 : Is (Flt.ofInt 32767 : B64) 32767 := by
        unfold Is; rw [val_ofInt, rnd_int B64 (by norm_num)]; norm_num
      have a2 : Is (32767.0 : B64) 32767 := by
        have := val_litnat (F := B64) (m := 327670) (e := 1) (k := 32767) (by norm_num) (by norm_num)
        unfold Is; rw [this]; norm_num
      have a3 : val (Flt.ofInt 32767 / 32767.0 : B64) = .fin 1 := by
        rw [Is.div a1 a2 (by norm_num), div_self (by norm_num), rnd_one]
      have a4 : val (Flt.sum [Flt.ofInt 32767 / 32767.0] : B64) = .fin 1 := by
        have := sum_nat (F := B64) [Flt.ofInt 32767 / 32767.0] [1] (by rw [List.map_singleton, a3]; norm_num) (by norm_num)
        rw [this]; norm_num
      have a5 : Is (Flt.ofNat 1 : B64) 1 := by
        unfold Is; rw [val_ofNat]; exact_mod_cast rnd_one B64
      rw [Is.div (show Is _ 1 from a4) a5 one_ne_zero, div_one, rnd_one]
    obtain ⟨norm, n1, n2⟩ := steady_active (n := 40000) (f := 30) hv (by norm_num)
    refine ⟨_, norm, by rw [hr]; exact d1, by rw [← n1, ← e], ?_⟩
    rw [show windowSamples 16000 / 4 = 320 by norm_num [windowSamples]]
    exact n2
  refine ⟨_, rfl, C74_run_wideband p hr hd (by norm_num) (by norm_num) (h16 (by unfold IsI16; omega)) (h16 (by unfold IsI16; omega))
    (nr := 40000) (nd := 41000) (by rw [List.length_replicate]) (by rw [List.length_replicate]) (by norm_num) (by norm_num) rfl (by norm_num) (by norm_num) (by norm_num) (j := 40000) (by norm_num)
    (by norm_num) hj ?_ ?_ (k := 1) (f := 30) le_rfl ?_ (by norm_num) ha ?_ ?_ ?_⟩
  any_goals unfold SmallDrift
  any_goals unfold columnCount
  any_goals unfold windowSamples
  all_goals norm_num

end Visqol
