import Verif.Num.Binary64Bits
import Verif.Props.LoadingIeee
import Verif.Props.SilentDegraded
import Verif.Props.SilentReference

/-!
# C83: only the channel average matters

A file is described by its frames, one list of 16 bit integers per instant, one integer per channel; the file on disk holds them
interleaved.
-/

namespace Visqol
open Ieee

/-- A 16 bit file made of `frames`, each with `c` samples. -/
def framesFile (c sr : Nat) (frames : List (List Int)) : WavContent := .wav c sr 16 (some frames.flatten)

/-- Frames of `c` 16 bit samples. -/
def FramesOf (c : Nat) (frames : List (List Int)) : Prop := 0 < c ∧ ∀ f ∈ frames, f.length = c ∧ ∀ x ∈ f, IsI16 x

theorem flatten_frame {c : Nat} {frames : List (List Int)} (h : ∀ f ∈ frames, f.length = c) {i : Nat} (hi : i < frames.length) :
    (frames.flatten.drop (i * c)).take c = frames[i] := by
  induction frames generalizing i with
  | nil => cases hi
  | cons f fs ih =>
    have hf := h f List.mem_cons_self
    cases i with
    | zero =>
      rw [Nat.zero_mul, List.drop_zero, List.flatten_cons, List.take_append_of_le_length (by omega), ← hf, List.take_length]
      rfl
    | succ j =>
      rw [List.flatten_cons, Nat.succ_mul, Nat.add_comm, ← List.drop_drop, List.drop_append_of_le_length (by omega), ← hf,
        List.drop_length, List.nil_append, hf]
      exact ih (fun g hg => h g (List.mem_cons_of_mem _ hg)) (by simpa using hi)

theorem flatten_length {c : Nat} {frames : List (List Int)} (h : ∀ f ∈ frames, f.length = c) :
    frames.flatten.length = frames.length * c := by
  induction frames with
  | nil => simp
  | cons f fs ih =>
    rw [List.flatten_cons, List.length_append, ih fun g hg => h g (List.mem_cons_of_mem _ hg), h f List.mem_cons_self,
      List.length_cons, Nat.succ_mul, Nat.add_comm]

/-- Loading a file gives one sample per frame. -/
theorem load_frames {F : Type} [Flt F] {c : Nat} (sr : Nat) {frames : List (List Int)} (h : FramesOf c frames) :
    loadAsMono (F := F) (framesFile c sr frames) =
      .ok ⟨frames.map fun f => Flt.sum (f.map fun x => (Flt.ofInt x / 32767.0 : F)) / Flt.ofNat c, sr⟩ := by
  obtain ⟨data, h1, h2, h3⟩ := C18_downmix (F := F) c sr frames.length frames.flatten h.1 (fun x hx => by
    obtain ⟨f, hf, hx⟩ := List.mem_flatten.mp hx
    exact (h.2 f hf).2 x hx) (flatten_length fun f hf => (h.2 f hf).1)
  unfold framesFile
  rw [h1]
  congr 2
  apply List.ext_getElem?
  intro i
  by_cases hi : i < frames.length
  · rw [h3 i hi, flatten_frame (fun f hf => (h.2 f hf).1) hi, List.getElem?_map, List.getElem?_eq_getElem hi]
    rfl
  · rw [List.getElem?_eq_none (by omega), List.getElem?_eq_none (by simpa using hi)]

/-- Frame by frame the same average over the channels. -/
def SameAverages (c : Nat) (a : List (List Int)) (d : Nat) (b : List (List Int)) : Prop :=
  a.map (fun f => (f.sum : ℚ) / c) = b.map fun f => (f.sum : ℚ) / d

theorem mean_real (c : Nat) (f : List Int) :
    Flt.sum (f.map fun x => (Flt.ofInt x / 32767.0 : ℝ)) / Flt.ofNat c = (((f.sum : ℚ) / c : ℚ) : ℝ) / 32767 := by
  have h : ∀ f : List Int, (f.map fun x => (Flt.ofInt x / 32767.0 : ℝ)).sum = (f.sum : ℝ) / 32767 := by
    intro f
    induction f with
    | nil => simp
    | cons x l ih =>
      rw [List.map_cons, List.sum_cons, ih, List.sum_cons]
      simp only [real_sci, real_ofInt]
      push_cast
      norm_num
      ring
  rw [real_sum, h, real_ofNat, Rat.cast_div, Rat.cast_intCast, Rat.cast_natCast]
  ring

/-- **C83**, exact arithmetic: a comparison sees a file only through the average of its channels.  Replacing the reference, the degraded
file or both by files of the same rate with the same averages, whatever their number of channels and whatever distinguishes the
channels, changes neither the scores nor the failure. -/
theorem C83_average (p : Profile) {world : World ℝ} (m : Manager ℝ) {r r' d d' : String} {sr sr' c c' e e' : Nat}
    {fr fr' fd fd' : List (List Int)} (hr : world.wav r = framesFile c sr fr) (hr' : world.wav r' = framesFile c' sr fr')
    (hd : world.wav d = framesFile e sr' fd) (hd' : world.wav d' = framesFile e' sr' fd')
    (h1 : FramesOf c fr) (h2 : FramesOf c' fr') (h3 : FramesOf e fd) (h4 : FramesOf e' fd')
    (hra : SameAverages c fr c' fr') (hda : SameAverages e fd e' fd') :
    m.run p world r d = m.run p world r' d' := by
  have key : ∀ {c c' : Nat} {f f' : List (List Int)} (s : Nat), FramesOf c f → FramesOf c' f' → SameAverages c f c' f' →
      loadAsMono (F := ℝ) (framesFile c s f) = loadAsMono (F := ℝ) (framesFile c' s f') := by
    intro c c' f f' s k1 k2 k3
    rw [load_frames s k1, load_frames s k2]
    simp only [mean_real]
    have := congrArg (List.map fun q : ℚ => ((q : ℝ) / 32767)) k3
    simp only [List.map_map] at this
    exact congrArg (fun l => Except.ok (⟨l, s⟩ : AudioSignal ℝ)) this
  unfold Manager.run
  rw [hr, hr', hd, hd', key sr h1 h2 hra, key sr' h3 h4 hda]

/-- Channels in another order have the same averages. -/
theorem sameAverages_perm {c : Nat} {a b : List (List Int)} (h : List.Forall₂ List.Perm a b) : SameAverages c a c b := by
  unfold SameAverages
  induction h with
  | nil => rfl
  | cons h _ ih => rw [List.map_cons, List.map_cons, ih, h.sum_eq]

/-- The same signal on all of `c` channels has the averages of the mono file. -/
theorem sameAverages_copies {c : Nat} (hc : 0 < c) (l : List Int) :
    SameAverages c (l.map (List.replicate c)) 1 (l.map ([·])) := by
  unfold SameAverages
  rw [List.map_map, List.map_map]
  apply List.map_congr_left
  intro x _
  have : (c : ℚ) ≠ 0 := by exact_mod_cast hc.ne'
  simp only [Function.comp, List.sum_replicate, List.sum_cons, List.sum_nil]
  push_cast
  field_simp
  simp

/-- A quiet stereo file, the same with exchanged channels, and its average as a mono file. -/
example : FramesOf 2 [[3, 5], [-4, 10]] ∧ FramesOf 2 [[5, 3], [10, -4]] ∧ FramesOf 1 [[4], [3]] ∧
    SameAverages 2 [[3, 5], [-4, 10]] 2 [[5, 3], [10, -4]] ∧ SameAverages 2 [[3, 5], [-4, 10]] 1 [[4], [3]] := by
  refine ⟨⟨by norm_num, ?_⟩, ⟨by norm_num, ?_⟩, ⟨by norm_num, ?_⟩, ?_, ?_⟩
  · simp [IsI16]
  · simp [IsI16]
  · simp [IsI16]
  · unfold SameAverages; norm_num
  · unfold SameAverages; norm_num

section rounded
variable {F : Type} [Flt F] [Ieee F] [RustFft F]

omit [RustFft F] in
/-- The value of a 16 bit sample. -/
theorem sample_val {x : Int} (h : IsI16 x) : ∃ y, val (Flt.ofInt x / 32767.0 : F) = .fin y ∧ Ieee.rnd F ((x : ℝ) / 32767) = .fin y ∧
    |y| ≤ 2 ∧ (x ≠ 0 → y ≠ 0) := by
  obtain ⟨y, h1, h2⟩ := sample_near (F := F) h
  have hi : Is (Flt.ofInt x : F) x := by
    unfold Is
    obtain ⟨a, b⟩ := h
    rw [val_ofInt, rnd_int F (by rw [abs_le]; constructor <;> omega)]
  have hl : Is (32767.0 : F) 32767 := by
    have := val_litnat (F := F) (m := 327670) (e := 1) (k := 32767) (by norm_num) (by norm_num)
    unfold Is
    rw [this]
    norm_num
  have h3 := Is.div hi hl (by norm_num)
  have hk1 : (-32768 : ℝ) ≤ x := by exact_mod_cast h.1
  have hk2 : (x : ℝ) ≤ 32767 := by exact_mod_cast h.2
  have a1 : -(32768 / 32767) ≤ (x : ℝ) / 32767 := by rw [← neg_div, div_le_div_iff_of_pos_right (by norm_num)]; linarith
  have a2 : (x : ℝ) / 32767 ≤ 1 := by rw [div_le_iff₀ (by norm_num)]; linarith
  have d1 := (abs_le.mp h2).1
  have d2 := (abs_le.mp h2).2
  norm_num at d1 d2 a1
  refine ⟨y, h1, by rw [← h3, h1], by rw [abs_le]; constructor <;> linarith, fun hx hy => ?_⟩
  subst hy
  rcases lt_or_gt_of_ne hx with hx | hx
  · have : (x : ℝ) ≤ -1 := by exact_mod_cast (by omega : x ≤ -1)
    have : (x : ℝ) / 32767 ≤ -1 / 32767 := by rw [div_le_div_iff_of_pos_right (by norm_num)]; exact this
    norm_num at this
    linarith
  · have : (1 : ℝ) ≤ x := by exact_mod_cast (by omega : 1 ≤ x)
    have : 1 / 32767 ≤ (x : ℝ) / 32767 := by rw [div_le_div_iff_of_pos_right (by norm_num)]; exact this
    norm_num at this
    linarith

omit [RustFft F] in
theorem rnd_self {a : F} {x : ℝ} (h : val a = .fin x) (hx : |x| ≤ 2 ^ 1000) : Ieee.rnd F x = .fin x := by
  obtain ⟨y, e, _⟩ := Ieee.rnd_acc (F := F) x hx
  have h1 : x ≤ y := by
    rcases rnd_ge a x x h le_rfl with h | ⟨z, h, hz⟩
    · rw [e] at h; cases h
    · rw [e] at h; cases h; exact hz
  have h2 : y ≤ x := by
    rcases rnd_le a x x h le_rfl with h | ⟨z, h, hz⟩
    · rw [e] at h; cases h
    · rw [e] at h; cases h; exact hz
  rw [e, le_antisymm h2 h1]

theorem small_pow {x : ℝ} (h : |x| ≤ 2) : |x| ≤ 2 ^ 1000 := by
  have := two_pow_mono (m := 1) (n := 1000) (by norm_num)
  rw [pow_one] at this
  exact h.trans this

omit [RustFft F] in
theorem mono_sample [BitLaws F] {x : Int} (h : IsI16 x) :
    Flt.sum [(Flt.ofInt x / 32767.0 : F)] / Flt.ofNat 1 = Flt.ofInt x / 32767.0 := by
  have h1 : Is (Flt.ofNat 1 : F) 1 := by unfold Is; simpa using val_nat (F := F) (n := 1) (by norm_num)
  have hl : val (32767.0 : F) = .fin 32767 := by
    have := val_litnat (F := F) (m := 327670) (e := 1) (k := 32767) (by norm_num) (by norm_num)
    rw [this]; norm_num
  by_cases hx : x = 0
  · subst hx
    rw [BitLaws.zero_div _ _ hl (by norm_num), BitLaws.sum_zero, BitLaws.zero_div _ _ h1 (by norm_num)]
  · obtain ⟨y, e, _, b, n⟩ := sample_val (F := F) h
    rw [BitLaws.sum_one _ _ e (n hx)]
    refine BitLaws.ext _ _ y ?_ e (n hx)
    rw [Is.div e h1 (by norm_num), div_one]
    exact rnd_self e (small_pow b)

omit [RustFft F] in
theorem stereo_sample [BitLaws F] {x : Int} (h : IsI16 x) :
    Flt.sum [(Flt.ofInt x / 32767.0 : F), Flt.ofInt x / 32767.0] / Flt.ofNat 2 = Flt.ofInt x / 32767.0 := by
  have h1 : Is (Flt.ofNat 2 : F) 2 := by unfold Is; simpa using val_nat (F := F) (n := 2) (by norm_num)
  have hl : val (32767.0 : F) = .fin 32767 := by
    have := val_litnat (F := F) (m := 327670) (e := 1) (k := 32767) (by norm_num) (by norm_num)
    rw [this]; norm_num
  by_cases hx : x = 0
  · subst hx
    rw [BitLaws.zero_div _ _ hl (by norm_num), BitLaws.sum_zeros, BitLaws.zero_div _ _ h1 (by norm_num)]
  · obtain ⟨y, e, _, b, n⟩ := sample_val (F := F) h
    refine BitLaws.ext _ _ y ?_ e (n hx)
    have hs : val (Flt.sum [(Flt.ofInt x / 32767.0 : F), Flt.ofInt x / 32767.0]) = .fin (2 * y) := by
      rw [BitLaws.sum_pair _ _ _ _ e e, ← two_mul]
      exact BitLaws.rnd_double _ _ e (small_pow b)
    rw [Is.div hs h1 (by norm_num), mul_div_cancel_left₀ _ (by norm_num : (2 : ℝ) ≠ 0)]
    exact rnd_self e (small_pow b)

/-- **C83**, double precision: a stereo file with the same signal on both channels is, bit for bit, the mono file, as reference, as
degraded file or both. -/
theorem C83_copies_rounded [BitLaws F] (p : Profile) {world : World F} (m : Manager F) {r r' d d' : String} {sr sr' : Nat} {s t : List Int}
    (hs : ∀ x ∈ s, IsI16 x) (ht : ∀ x ∈ t, IsI16 x)
    (hr : world.wav r = framesFile 2 sr (s.map fun x => [x, x])) (hr' : world.wav r' = framesFile 1 sr (s.map ([·])))
    (hd : world.wav d = framesFile 2 sr' (t.map fun x => [x, x])) (hd' : world.wav d' = framesFile 1 sr' (t.map ([·]))) :
    m.run p world r d = m.run p world r' d' ∧ m.run p world r' d = m.run p world r' d' ∧ m.run p world r d' = m.run p world r' d' := by
  have key : ∀ (l : List Int) (k : Nat), (∀ x ∈ l, IsI16 x) →
      loadAsMono (F := F) (framesFile 2 k (l.map fun x => [x, x])) = loadAsMono (F := F) (framesFile 1 k (l.map ([·]))) := by
    intro l k hl
    rw [load_frames k ⟨by norm_num, by
        intro f hf
        obtain ⟨x, hx, rfl⟩ := List.mem_map.mp hf
        exact ⟨rfl, by simpa using hl x hx⟩⟩,
      load_frames k ⟨by norm_num, by
        intro f hf
        obtain ⟨x, hx, rfl⟩ := List.mem_map.mp hf
        exact ⟨rfl, by simpa using hl x hx⟩⟩]
    congr 2
    rw [List.map_map, List.map_map]
    apply List.map_congr_left
    intro x hx
    simp only [Function.comp, List.map_cons, List.map_nil]
    rw [stereo_sample (hl x hx), mono_sample (hl x hx)]
  unfold Manager.run
  rw [hr, hr', hd, hd', key s sr hs, key t sr' ht]
  exact ⟨rfl, rfl, rfl⟩

/-- **C83**, double precision: exchanging left and right changes nothing, bit for bit. -/
theorem C83_swap_rounded [BitLaws F] (p : Profile) {world : World F} (m : Manager F) {r r' d d' : String} {sr sr' : Nat}
    {s t : List (Int × Int)} (hs : ∀ x ∈ s, IsI16 x.1 ∧ IsI16 x.2) (ht : ∀ x ∈ t, IsI16 x.1 ∧ IsI16 x.2)
    (hr : world.wav r = framesFile 2 sr (s.map fun x => [x.1, x.2])) (hr' : world.wav r' = framesFile 2 sr (s.map fun x => [x.2, x.1]))
    (hd : world.wav d = framesFile 2 sr' (t.map fun x => [x.1, x.2])) (hd' : world.wav d' = framesFile 2 sr' (t.map fun x => [x.2, x.1])) :
    m.run p world r d = m.run p world r' d' ∧ m.run p world r' d = m.run p world r' d' ∧ m.run p world r d' = m.run p world r' d' := by
  have key : ∀ (l : List (Int × Int)) (k : Nat), (∀ x ∈ l, IsI16 x.1 ∧ IsI16 x.2) →
      loadAsMono (F := F) (framesFile 2 k (l.map fun x => [x.1, x.2])) =
        loadAsMono (F := F) (framesFile 2 k (l.map fun x => [x.2, x.1])) := by
    intro l k hl
    rw [load_frames k ⟨by norm_num, by
        intro f hf
        obtain ⟨x, hx, rfl⟩ := List.mem_map.mp hf
        exact ⟨rfl, by simpa using hl x hx⟩⟩,
      load_frames k ⟨by norm_num, by
        intro f hf
        obtain ⟨x, hx, rfl⟩ := List.mem_map.mp hf
        exact ⟨rfl, by simpa using (hl x hx).symm⟩⟩]
    congr 2
    rw [List.map_map, List.map_map]
    apply List.map_congr_left
    intro x hx
    simp only [Function.comp, List.map_cons, List.map_nil]
    obtain ⟨y, e1, _⟩ := sample_val (F := F) (hl x hx).1
    obtain ⟨z, e2, _⟩ := sample_val (F := F) (hl x hx).2
    rw [BitLaws.sum_swap _ _ _ _ e1 e2]
  unfold Manager.run
  rw [hr, hr', hd, hd', key s sr hs, key t sr' ht]
  exact ⟨rfl, rfl, rfl⟩

omit [RustFft F] in
/-- A stereo file whose channels are inverses of one another is silence. -/
theorem opposite_silent [BitLaws F] {sr : Nat} {t : List Int} (ht : ∀ x ∈ t, IsI16 x ∧ IsI16 (-x)) :
    ∃ data, loadAsMono (F := F) (framesFile 2 sr (t.map fun x => [x, -x])) = .ok ⟨data, sr⟩ ∧ data.length = t.length ∧ Silent data := by
  refine ⟨_, load_frames sr ⟨by norm_num, by
        intro f hf
        obtain ⟨x, hx, rfl⟩ := List.mem_map.mp hf
        exact ⟨rfl, by simpa using ht x hx⟩⟩, by simp, ?_⟩
  intro a ha
  rw [List.map_map] at ha
  obtain ⟨x, hx, rfl⟩ := List.mem_map.mp ha
  simp only [Function.comp, List.map_cons, List.map_nil]
  obtain ⟨y, e1, f1, _⟩ := sample_val (F := F) (ht x hx).1
  obtain ⟨z, e2, f2, _⟩ := sample_val (F := F) (ht x hx).2
  have hz : z = -y := by
    rw [Int.cast_neg, neg_div, BitLaws.rnd_neg, f1] at f2
    simp only [Val.neg, Val.fin.injEq] at f2
    exact f2.symm
  subst hz
  have h0 : Ieee.rnd F (0 : ℝ) = .fin 0 := by simpa using rnd_nat F (n := 0) (by norm_num)
  have h1 : Is (Flt.ofNat 2 : F) 2 := by unfold Is; simpa using val_nat (F := F) (n := 2) (by norm_num)
  have hs : val (Flt.sum [(Flt.ofInt x / 32767.0 : F), Flt.ofInt (-x) / 32767.0]) = .fin 0 := by
    rw [BitLaws.sum_pair _ _ _ _ e1 e2, add_neg_cancel]
    exact h0
  rw [Is.div hs h1 (by norm_num), zero_div]
  exact h0

/-- **C83**, double precision: a stereo file with one channel inverted cancels out.  However loud it is, as a degraded file it never
gets a score. -/
theorem C83_opposite_rounded [BitLaws F] [NanFft F] (p : Profile) {world : World F} {m : Manager F} {r d : String} {cr sr srd : Nat}
    {s t : List Int} (hr : world.wav r = .wav cr sr 16 (some s)) (ht : ∀ x ∈ t, IsI16 x ∧ IsI16 (-x))
    (hd : world.wav d = framesFile 2 srd (t.map fun x => [x, -x]))
    {u : Variant} {nb radius : Nat} (hm : Manager.new world nb u radius = .ok m) (hr1 : 1 ≤ radius)
    (hr2 : 14 + 30 * radius ≤ 2147483647) (h0 : 0 < sr) (hsr : sr < 4294967296)
    (hlen : s.length / cr + t.length ≤ 2 ^ 36) (hdrift : SmallDrift sr (t.length + s.length / cr / 2))
    (x : Manager F × SimilarityResult F) : m.run p world r d ≠ .ok x := by
  intro h
  obtain ⟨ref, deg, h1, h2, h3, h4⟩ := run_ok (m' := x.1) (res := x.2) h
  rw [hr] at h1
  obtain ⟨data, k1, k2, k3⟩ := opposite_silent (F := F) (sr := srd) ht
  rw [hd, k1] at h2
  cases h2
  obtain ⟨_, a2, a3, _⟩ := load_facts h1
  have hpc : (m.patchCreator = .vad 30 ∨ m.patchCreator = .image 20) ∧ m.searchWindow = radius := by
    cases u with
    | wideband u => cases hm; exact ⟨.inl rfl, rfl⟩
    | fullband path =>
      obtain ⟨v, _, hm⟩ := bind_ok hm
      cases hm
      exact ⟨.inr rfl, rfl⟩
  refine C46_silent_degraded hpc.1 (by rw [hpc.2]; exact hr1) (by rw [hpc.2]; exact hr2) h3 (by rw [a2]; exact h0)
    (by rw [a2]; exact hsr) (by rw [a3]; simpa [k2] using hlen) (by rw [a2, a3]; simpa [k2] using hdrift) k3 _ h4

end rounded

/-- A full scale square wave on the left, its inverse on the right: one second at 16 kHz, the reference being the left channel. -/
example (p : Profile) (world : World B64)
    (hr : world.wav "left.wav" = .wav 1 16000 16 (some ((List.range 16000).map fun i => if i % 40 < 20 then 30000 else -30000)))
    (hd : world.wav "stereo.wav" = framesFile 2 16000 (((List.range 16000).map fun i => if i % 40 < 20 then 30000 else -30000).map fun x => [x, -x]))
    {m : Manager B64} (hm : Manager.new world 21 (.wideband false) 60 = .ok m) (x : Manager B64 × SimilarityResult B64) :
    m.run p world "left.wav" "stereo.wav" ≠ .ok x := by
  refine C83_opposite_rounded p hr (fun y hy => ?_) hd hm (by norm_num) (by norm_num) (by norm_num) (by norm_num) ?_ ?_ x
  · obtain ⟨i, _, rfl⟩ := List.mem_map.mp hy
    split <;> constructor <;> unfold IsI16 <;> norm_num
  · simp only [List.length_map, List.length_range]; norm_num
  · simp only [List.length_map, List.length_range]
    unfold SmallDrift windowSamples
    norm_num

/-- The bit patterns of binary64 satisfy the laws. -/
example : BitLaws B64 := inferInstance

end Visqol
