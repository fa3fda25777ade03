import Verif.Model.Num

/-! # Lemmas about the execution monad and the loop combinators -/

namespace Visqol

/-- A successful sequence: both parts succeed. -/
theorem bind_ok {α β : Type} {x : M α} {f : α → M β} {b : β} (h : (x >>= f) = .ok b) :
    ∃ a, x = .ok a ∧ f a = .ok b := by
  cases x with
  | error e => cases h
  | ok a => exact ⟨a, rfl, h⟩

/-- A failing sequence: one of the parts fails. -/
theorem bind_error {α β : Type} {x : M α} {f : α → M β} {e : Fail} (h : (x >>= f) = .error e) :
    x = .error e ∨ ∃ a, x = .ok a ∧ f a = .error e := by
  cases x with
  | error e' => left; cases h; rfl
  | ok a => exact .inr ⟨a, rfl, h⟩

@[simp] theorem ok_bind {α β : Type} (a : α) (f : α → M β) : ((Except.ok a : M α) >>= f) = f a := rfl
@[simp] theorem error_bind {α β : Type} (e : Fail) (f : α → M β) : ((Except.error e : M α) >>= f) = .error e := rfl

theorem pure_eq_ok {α : Type} (a : α) : (pure a : M α) = .ok a := rfl

theorem expect_ok {α : Type} {o : Option α} {a : α} (h : expect o = .ok a) : o = some a := by
  cases o with
  | none => cases h
  | some b => cases h; rfl

theorem idx_ok {α : Type} {l : List α} {i : Nat} {a : α} (h : idx l i = .ok a) : l[i]? = some a := by
  unfold idx at h
  cases hi : l[i]? with
  | none => rw [hi] at h; cases h
  | some b => rw [hi] at h; cases h; rfl

theorem idx_of_lt {α : Type} {l : List α} {i : Nat} (h : i < l.length) : idx l i = .ok l[i] := by
  unfold idx; rw [List.getElem?_eq_getElem h]

theorem idx_of_ge {α : Type} {l : List α} {i : Nat} (h : l.length ≤ i) : idx l i = .error (.panic .index) := by
  unfold idx; rw [List.getElem?_eq_none h]

theorem idx_ok_lt {α : Type} {l : List α} {i : Nat} {a : α} (h : idx l i = .ok a) : i < l.length := by
  have := idx_ok h
  exact (List.getElem?_eq_some_iff.mp this).1

theorem setIdx_ok {α : Type} {l l' : List α} {i : Nat} {a : α} (h : setIdx l i a = .ok l') :
    i < l.length ∧ l' = l.set i a := by
  unfold setIdx at h
  split at h
  · cases h; exact ⟨‹_›, rfl⟩
  · cases h

theorem setIdx_of_lt {α : Type} {l : List α} {i : Nat} {a : α} (h : i < l.length) :
    setIdx l i a = .ok (l.set i a) := by
  unfold setIdx; rw [if_pos h]

theorem sliceM_ok {α : Type} {l l' : List α} {a b : Nat} (h : sliceM l a b = .ok l') :
    a ≤ b ∧ b ≤ l.length ∧ l' = (l.drop a).take (b - a) := by
  unfold sliceM at h
  split at h
  · rename_i hc; cases h; exact ⟨hc.1, hc.2, rfl⟩
  · cases h

theorem sliceM_of_le {α : Type} {l : List α} {a b : Nat} (h1 : a ≤ b) (h2 : b ≤ l.length) :
    sliceM l a b = .ok ((l.drop a).take (b - a)) := by
  unfold sliceM; rw [if_pos ⟨h1, h2⟩]

theorem sliceM_ok_length {α : Type} {l l' : List α} {a b : Nat} (h : sliceM l a b = .ok l') :
    l'.length = b - a := by
  obtain ⟨h1, h2, rfl⟩ := sliceM_ok h
  simp only [List.length_take, List.length_drop]; omega

theorem sliceM_zero_length {α : Type} (l : List α) : sliceM l 0 l.length = .ok l := by
  rw [sliceM_of_le (Nat.zero_le _) (Nat.le_refl _)]; simp

theorem usub_of_le {p : Profile} {a b : Nat} (h : b ≤ a) : usub p a b = .ok (a - b) := by
  unfold usub; rw [if_pos h]

theorem uadd_of_lt {p : Profile} {a b : Nat} (h : a + b < usizeMod) : uadd p a b = .ok (a + b) := by
  unfold uadd; rw [if_pos h]

theorem i32_of_mem {p : Profile} {z : Int} (h1 : -2147483648 ≤ z) (h2 : z ≤ 2147483647) : i32 p z = .ok z := by
  unfold i32; rw [if_pos ⟨h1, h2⟩]

theorem wrapI32_of_mem {z : Int} (h1 : -2147483648 ≤ z) (h2 : z ≤ 2147483647) : wrapI32 z = z := by
  unfold wrapI32
  simp only [Int.bmod]
  omega

theorem wrapI32_mem (z : Int) : -2147483648 ≤ wrapI32 z ∧ wrapI32 z ≤ 2147483647 := by
  unfold wrapI32
  simp only [Int.bmod]
  omega

/-! ## `mapE` -/

theorem mapE_ok_length {α β : Type} {f : α → M β} : ∀ {l : List α} {r : List β},
    mapE f l = .ok r → r.length = l.length
  | [], r, h => by cases h; rfl
  | a :: l, r, h => by
    obtain ⟨b, _, h⟩ := bind_ok h
    obtain ⟨bs, hbs, h⟩ := bind_ok h
    cases h
    simp [mapE_ok_length hbs]

theorem mapE_ok_get {α β : Type} {f : α → M β} : ∀ {l : List α} {r : List β} (_ : mapE f l = .ok r)
    {i : Nat} {a : α}, l[i]? = some a → ∃ b, f a = .ok b ∧ r[i]? = some b
  | [], r, h, i, a, hi => by simp at hi
  | a' :: l, r, h, i, a, hi => by
    obtain ⟨b, hb, h⟩ := bind_ok h
    obtain ⟨bs, hbs, h⟩ := bind_ok h
    cases h
    cases i with
    | zero => simp at hi; subst hi; exact ⟨b, hb, rfl⟩
    | succ i => exact mapE_ok_get hbs (by simpa using hi)

theorem mapE_ok_get' {α β : Type} {f : α → M β} {l : List α} {r : List β} (h : mapE f l = .ok r)
    {i : Nat} {b : β} (hb : r[i]? = some b) : ∃ a, l[i]? = some a ∧ f a = .ok b := by
  have hlt : i < l.length := by
    rw [← mapE_ok_length h]; exact (List.getElem?_eq_some_iff.mp hb).1
  obtain ⟨b', h1, h2⟩ := mapE_ok_get h (List.getElem?_eq_getElem hlt)
  rw [h2] at hb; cases hb
  exact ⟨_, List.getElem?_eq_getElem hlt, h1⟩

theorem mapE_ok_mem {α β : Type} {f : α → M β} {l : List α} {r : List β} (h : mapE f l = .ok r)
    {b : β} (hb : b ∈ r) : ∃ a ∈ l, f a = .ok b := by
  obtain ⟨i, hi⟩ := List.getElem?_of_mem hb
  obtain ⟨a, ha, hf⟩ := mapE_ok_get' h hi
  exact ⟨a, List.mem_of_getElem? ha, hf⟩

theorem mapE_of_forall {α β : Type} {f : α → M β} {g : α → β} : ∀ {l : List α},
    (∀ a ∈ l, f a = .ok (g a)) → mapE f l = .ok (l.map g)
  | [], _ => rfl
  | a :: l, h => by
    have h1 := h a (by simp)
    have h2 := mapE_of_forall (l := l) (fun x hx => h x (by simp [hx]))
    simp only [mapE, h1, h2, ok_bind, List.map]

theorem mapE_total {α β : Type} {f : α → M β} : ∀ {l : List α}, (∀ a ∈ l, ∃ b, f a = .ok b) → ∃ r, mapE f l = .ok r
  | [], _ => ⟨[], rfl⟩
  | a :: l, h => by
    obtain ⟨b, h1⟩ := h a (by simp)
    obtain ⟨bs, h2⟩ := mapE_total (l := l) (fun x hx => h x (by simp [hx]))
    exact ⟨b :: bs, by simp only [mapE, h1, h2, ok_bind]⟩

theorem mapE_congr {α β : Type} {f g : α → M β} : ∀ {l : List α}, (∀ a ∈ l, f a = g a) → mapE f l = mapE g l
  | [], _ => rfl
  | a :: l, h => by
    have h1 := h a (by simp)
    have h2 := mapE_congr (l := l) (fun x hx => h x (by simp [hx]))
    simp only [mapE, h1, h2]

theorem mapE_error {α β : Type} {f : α → M β} {e : Fail} : ∀ {l : List α}, mapE f l = .error e →
    ∃ a ∈ l, f a = .error e
  | [], h => by cases h
  | a :: l, h => by
    rcases bind_error h with h | ⟨b, _, h⟩
    · exact ⟨a, by simp, h⟩
    · rcases bind_error h with h | ⟨bs, _, h⟩
      · obtain ⟨x, hx, hf⟩ := mapE_error h
        exact ⟨x, by simp [hx], hf⟩
      · cases h

/-! ## `foldE` -/

theorem foldE_append {α σ : Type} (f : σ → α → M σ) : ∀ (l₁ l₂ : List α) (s : σ),
    foldE f s (l₁ ++ l₂) = (foldE f s l₁ >>= fun s' => foldE f s' l₂)
  | [], l₂, s => rfl
  | a :: l, l₂, s => by
    simp only [List.cons_append, foldE]
    cases h : f s a with
    | error e => rfl
    | ok s' => simp only [ok_bind]; exact foldE_append f l l₂ s'

/-- Invariant rule for successful loops. -/
theorem foldE_inv {α σ : Type} {f : σ → α → M σ} (P : σ → Prop) : ∀ {l : List α} {s s' : σ},
    (∀ a ∈ l, ∀ t t', P t → f t a = .ok t' → P t') → P s → foldE f s l = .ok s' → P s'
  | [], s, s', _, h0, h => by cases h; exact h0
  | a :: l, s, s', hs, h0, h => by
    obtain ⟨s1, h1, h⟩ := bind_ok h
    exact foldE_inv P (fun x hx => hs x (by simp [hx])) (hs a (by simp) _ _ h0 h1) h

theorem foldE_of_forall {α σ : Type} {f : σ → α → M σ} {g : σ → α → σ} : ∀ {l : List α} {s : σ},
    (∀ a ∈ l, ∀ t, f t a = .ok (g t a)) → foldE f s l = .ok (l.foldl g s)
  | [], s, _ => rfl
  | a :: l, s, h => by
    simp only [foldE, h a (by simp) s, ok_bind, List.foldl]
    exact foldE_of_forall (fun x hx => h x (by simp [hx]))

theorem foldE_congr {α σ : Type} {f g : σ → α → M σ} : ∀ {l : List α} {s : σ},
    (∀ a ∈ l, ∀ t, f t a = g t a) → foldE f s l = foldE g s l
  | [], s, _ => rfl
  | a :: l, s, h => by
    simp only [foldE, h a (by simp) s]
    cases g s a with
    | error e => rfl
    | ok s' => exact foldE_congr (fun x hx => h x (by simp [hx]))

theorem resize_length {α : Type} (l : List α) (n : Nat) (v : α) : (resize l n v).length = n := by
  simp only [resize, List.length_append, List.length_take, List.length_replicate]; omega

theorem resize_self {α : Type} (l : List α) (v : α) : resize l l.length v = l := by simp [resize]

theorem resize_of_le {α : Type} {l : List α} {n : Nat} {v : α} (h : l.length ≤ n) :
    resize l n v = l ++ List.replicate (n - l.length) v := by
  simp [resize, List.take_of_length_le h]

end Visqol
