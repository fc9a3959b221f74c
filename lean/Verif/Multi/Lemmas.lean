import Verif.Multi.Model

/-!
# Lemmas about the multivariate model
-/

namespace Verif.Multi

/-! ### the state monad -/

namespace MM

/-- `x` run in the world `w` finishes normally with the value `a`, leaving the world `w'` -/
def Returns {α} (x : MM α) (w w' : World) (a : α) : Prop := x w = (w', .ok a)

/-- `x` run in the world `w` raises `e`, leaving the world `w'` -/
def Raises {α} (x : MM α) (w w' : World) (e : PyErr) : Prop := x w = (w', .error (.err e))

theorem bind_ok {α β} {x : MM α} {f : α → MM β} {w w' : World} {b : β} :
    Returns (x >>= f) w w' b ↔ ∃ w1 a, Returns x w w1 a ∧ Returns (f a) w1 w' b := by
  show MM.bind x f w = _ ↔ ∃ w1 a, x w = _ ∧ f a w1 = _
  unfold MM.bind
  rcases h : x w with ⟨w1, r⟩
  cases r <;> simp

theorem bind_raises {α β} {x : MM α} {f : α → MM β} {w w' : World} {e : PyErr} :
    Raises (x >>= f) w w' e ↔ Raises x w w' e ∨ ∃ w1 a, Returns x w w1 a ∧ Raises (f a) w1 w' e := by
  show MM.bind x f w = _ ↔ x w = _ ∨ ∃ w1 a, x w = _ ∧ f a w1 = _
  unfold MM.bind
  rcases h : x w with ⟨w1, r⟩
  cases r <;> simp

theorem run_bind {α β} {x : MM α} {f : α → MM β} {w w1 : World} {a : α} (h : Returns x w w1 a) :
    (x >>= f) w = f a w1 := by
  show MM.bind x f w = _
  unfold MM.bind
  rw [show x w = _ from h]

theorem pure_ok {α} {a b : α} {w w' : World} :
    Returns (Pure.pure a : MM α) w w' b ↔ w = w' ∧ a = b := by
  show (w, Except.ok a) = _ ↔ _
  simp

theorem get_ok {w w' v : World} : Returns MM.get w w' v ↔ w = w' ∧ w = v := by
  simp [Returns, MM.get]

theorem modifyDet_ok {f : Det → Det} {w w' : World} {u : Unit} :
    Returns (MM.modifyDet f) w w' u ↔ { w with det := f w.det } = w' := by
  simp [Returns, MM.modifyDet]

theorem modifyParams_ok {f : Params → Params} {w w' : World} {u : Unit} :
    Returns (MM.modifyParams f) w w' u ↔ { w with params := f w.params } = w' := by
  simp [Returns, MM.modifyParams]

theorem writeFile_ok {p : String} {c : Ckpt} {w w' : World} {u : Unit} :
    Returns (MM.writeFile p c) w w' u ↔
      { w with disk := fun x => if x = p then .ckpt c else w.disk x } = w' := by
  simp [Returns, MM.writeFile]

theorem throw_ok {α} {e : PyErr} {w w' : World} {a : α} : Returns (MM.throw e : MM α) w w' a ↔ False := by
  simp [Returns, MM.throw]

theorem throw_raises {α} {e e' : PyErr} {w w' : World} :
    Raises (MM.throw e : MM α) w w' e' ↔ w = w' ∧ e = e' := by
  simp [Raises, MM.throw]

theorem of_ok {α} {x : Except Stop α} {w w' : World} {a : α} :
    Returns (MM.of x) w w' a ↔ w = w' ∧ x = .ok a := by
  simp [Returns, MM.of]

theorem of_raises {α} {x : Except Stop α} {w w' : World} {e : PyErr} :
    Raises (MM.of x) w w' e ↔ w = w' ∧ x = .error (.err e) := by
  simp [Raises, MM.of]

theorem pure_raises {α} {a : α} {w w' : World} {e : PyErr} : Raises (Pure.pure a : MM α) w w' e ↔ False := by
  show (w, Except.ok a) = _ ↔ _
  simp

theorem get_raises {w w' : World} {e : PyErr} : Raises MM.get w w' e ↔ False := by simp [Raises, MM.get]

theorem modifyDet_raises {f : Det → Det} {w w' : World} {e : PyErr} : Raises (MM.modifyDet f) w w' e ↔ False := by
  simp [Raises, MM.modifyDet]

theorem modifyParams_raises {f : Params → Params} {w w' : World} {e : PyErr} :
    Raises (MM.modifyParams f) w w' e ↔ False := by
  simp [Raises, MM.modifyParams]

end MM

/-! ### pieces of equal length -/

theorem chunk_nil {α} {n : Nat} (hn : 0 < n) : chunk n ([] : List α) = [] := by
  unfold chunk
  have : (([] : List α).length + n - 1) / n = 0 := by
    rw [Nat.div_eq_zero_iff]; right; simp; omega
  rw [this]; rfl

theorem chunk_cons {α} {n : Nat} (hn : 0 < n) {l : List α} (hl : l ≠ []) :
    chunk n l = l.take n :: chunk n (l.drop n) := by
  unfold chunk
  have hpos : 0 < l.length := List.length_pos_iff.2 hl
  have : (l.length + n - 1) / n = ((l.drop n).length + n - 1) / n + 1 := by
    rw [List.length_drop, ← Nat.add_div_right _ hn]
    rcases Nat.lt_or_ge l.length n with h | h
    · rw [show l.length - n = 0 by omega, show l.length + n - 1 = (l.length - 1) + n by omega,
        Nat.add_div_right _ hn, Nat.add_div_right _ hn, Nat.div_eq_of_lt (by omega), Nat.div_eq_of_lt (by omega)]
    · congr 1; omega
  rw [this, List.range_succ_eq_map, List.map_cons, List.map_map]
  simp only [Nat.zero_mul, List.drop_zero]
  congr 1
  apply List.map_congr_left
  intro i _
  simp only [Function.comp_apply, List.drop_drop]
  congr 2
  rw [Nat.succ_mul]; omega

/-- induction over the pieces -/
theorem chunk_induction {α} {n : Nat} (hn : 0 < n) {P : List α → Prop} (h0 : P [])
    (h1 : ∀ l, l ≠ [] → P (l.drop n) → P l) (l : List α) : P l := by
  induction hk : l.length using Nat.strong_induction_on generalizing l with
  | _ k ih =>
    by_cases hl : l = []
    · rw [hl]; exact h0
    · refine h1 l hl (ih _ ?_ _ rfl)
      have : 0 < l.length := List.length_pos_iff.2 hl
      rw [List.length_drop]; omega

theorem chunk_flatten {α} {n : Nat} (hn : 0 < n) (l : List α) : (chunk n l).flatten = l := by
  induction l using chunk_induction hn with
  | h0 => rw [chunk_nil hn]; rfl
  | h1 l hl ih => rw [chunk_cons hn hl, List.flatten_cons, ih, List.take_append_drop]

theorem chunk_mem_length {α} {n : Nat} (hn : 0 < n) (l : List α) :
    ∀ b ∈ chunk n l, 0 < b.length ∧ b.length ≤ n := by
  induction l using chunk_induction hn with
  | h0 => rw [chunk_nil hn]; simp
  | h1 l hl ih =>
    rw [chunk_cons hn hl]
    intro b hb
    rcases List.mem_cons.1 hb with rfl | hb
    · have : 0 < l.length := List.length_pos_iff.2 hl
      rw [List.length_take]; omega
    · exact ih b hb

theorem chunk_append {α} {n : Nat} (hn : 0 < n) (a b : List α) (ha : a.length = n) :
    chunk n (a ++ b) = a :: chunk n b := by
  have hne : a ++ b ≠ [] := by
    intro h; rw [List.append_eq_nil_iff] at h; rw [h.1] at ha; simp at ha; omega
  rw [chunk_cons hn hne]
  congr 1
  · rw [← ha]; simp
  · congr 1
    rw [← ha]; simp

/-- a buffer of pieces of equal length is cut back into the pieces -/
theorem chunk_of_flatten {α} {n : Nat} (hn : 0 < n) (ls : List (List α)) (h : ∀ l ∈ ls, l.length = n) :
    chunk n ls.flatten = ls := by
  induction ls with
  | nil => exact chunk_nil hn
  | cons a t ih =>
    rw [List.flatten_cons, chunk_append hn _ _ (h a (by simp)), ih fun l hl => h l (List.mem_cons_of_mem _ hl)]

theorem chunk_map {α β} (f : α → β) (n : Nat) (l : List α) : chunk n (l.map f) = (chunk n l).map (·.map f) := by
  unfold chunk
  simp [List.map_map, Function.comp_def, List.map_drop, List.map_take]

/-- for every successful element-wise computation there is the list of results -/
theorem mapM_ok_iff {α β ε} {f : α → Except ε β} {l : List α} {r : List β} :
    l.mapM f = .ok r ↔ List.Forall₂ (fun a b => f a = .ok b) l r := by
  induction l generalizing r with
  | nil =>
    rw [List.mapM_nil]
    constructor
    · intro h; cases h; exact .nil
    · intro h; cases h; rfl
  | cons a t ih =>
    rw [List.mapM_cons]
    constructor
    · intro h
      obtain ⟨b, hb, h⟩ := ebind_ok.1 h
      obtain ⟨bs, hbs, h⟩ := ebind_ok.1 h
      cases h
      exact .cons hb (ih.1 hbs)
    · intro h
      cases h with
      | cons hb ht =>
        rw [hb]
        simp only [Bind.bind, Except.bind, ih.2 ht]
        rfl

theorem mapM_ok_of {α β ε} {f : α → Except ε β} {g : α → β} {l : List α} (h : ∀ a ∈ l, f a = .ok (g a)) :
    l.mapM f = .ok (l.map g) := by
  rw [mapM_ok_iff, List.forall₂_map_right_iff, List.forall₂_same]
  exact h

theorem mapM_ok_length {α β ε} {f : α → Except ε β} {l : List α} {r : List β} (h : l.mapM f = .ok r) :
    r.length = l.length := (mapM_ok_iff.1 h).length_eq.symm

theorem mapM_ok_get {α β ε} {f : α → Except ε β} {l : List α} {r : List β} (h : l.mapM f = .ok r)
    {i : Nat} (hi : i < l.length) : f l[i] = .ok (r[i]'(by rw [mapM_ok_length h]; exact hi)) := by
  have h2 := mapM_ok_iff.1 h
  exact (List.forall₂_iff_get.1 h2).2 i hi (by rw [mapM_ok_length h]; exact hi)

end Verif.Multi
