import Verif.Props.MultiForget

/-!
# C127: raising `level` never adds anomalies

`level` chooses the threshold of a training. Two programs that differ in `level` only, the second asking for no lower ones, train the same networks; every
result has the same score and interpretation in both, and what is an anomaly in the second is one in the first.
-/

namespace Verif

open Multi Spec

namespace Spec

/-- the level a dict asks for: the entry, which is a nonnegative number, or the double nearest to 0.8 -/
def LevelOf (p : Params) (l : ℚ) : Prop :=
  (p "level" = none ∧ l = roundDouble (8 / 10)) ∨ ∃ v, p "level" = some v ∧ v.asNumber? = some (.fin l) ∧ 0 ≤ l

/-- the same dicts, except that the second may ask for a higher level -/
def LevelUp (p q : Params) : Prop :=
  (∀ k, k ≠ "level" → p k = q k) ∧ (p "level" = q "level" ∨ ∃ l l', LevelOf p l ∧ LevelOf q l' ∧ l ≤ l')

/-- the same calls, with params of which the second may ask for a higher level -/
inductive Raised : Call → Call → Prop where
  | params {p q} (h : LevelUp p q) : Raised (.params p) (.params q)
  | same (c : Call) : Raised c c

/-- the same result, except that it may be an anomaly in the first list only -/
structure FewerItem (a b : Multi.Item) : Prop where
  index : a.index = b.index
  score : a.score = b.score
  interpretation : a.interpretation = b.interpretation
  anomaly : b.isAnomaly = true → a.isAnomaly = true
  severity : b.severity = if b.isAnomaly then a.severity else 0

/-- the same exception, or results of which the second have no further anomaly -/
inductive Fewer : Except Stop (List Multi.Item) → Except Stop (List Multi.Item) → Prop where
  | error (e : Stop) : Fewer (.error e) (.error e)
  | ok {l l'} (h : List.Forall₂ FewerItem l l') : Fewer (.ok l) (.ok l')

end Spec

/-! ### related worlds -/

/-- a configuration without its level -/
def dropC (c : Config) : Config := { c with level := 0, extra := fun k => if k = "level" then none else c.extra k }

structure UpC (c c' : Config) : Prop where
  rest : dropC c = dropC c'
  level : c.level = c'.level ∨ 0 ≤ c.level ∧ c.level ≤ c'.level

structure UpM (m m' : NetObj) : Prop where
  config : UpC m.config m'.config
  net : m.net = m'.net

structure UpK (k k' : Ckpt) : Prop where
  config : UpC k.config k'.config
  net : k.net = k'.net
  pct : k.pct = k'.pct
  threshold : Option.Rel (· ≤ ·) k.threshold k'.threshold
  scoreMax : k.scoreMax = k'.scoreMax
  scoreMin : k.scoreMin = k'.scoreMin

inductive UpF : File → File → Prop where
  | missing : UpF .missing .missing
  | garbage : UpF .garbage .garbage
  | ckpt {k k'} (h : UpK k k') : UpF (.ckpt k) (.ckpt k')

structure UpD (d d' : Det) : Prop where
  config : Option.Rel UpC d.config d'.config
  model : Option.Rel UpM d.model d'.model
  pct : d.pct = d'.pct
  threshold : Option.Rel (· ≤ ·) d.threshold d'.threshold
  scoreMax : d.scoreMax = d'.scoreMax
  scoreMin : d.scoreMin = d'.scoreMin
  modelPath : d.modelPath = d'.modelPath
  vars : d.vars = d'.vars

structure UpW (w v : World) : Prop where
  det : UpD w.det v.det
  disk : ∀ x, UpF (w.disk x) (v.disk x)
  params : LevelUp w.params v.params

theorem rel_refl {α} {R : α → α → Prop} (h : ∀ a, R a a) (o : Option α) : Option.Rel R o o := by
  cases o with
  | none => exact .none
  | some a => exact .some (h a)

theorem UpC.refl (c : Config) : UpC c c := ⟨rfl, .inl rfl⟩

theorem UpM.refl (m : NetObj) : UpM m m := ⟨.refl _, rfl⟩

theorem UpF.refl (f : File) : UpF f f := by
  cases f with
  | missing => exact .missing
  | garbage => exact .garbage
  | ckpt k => exact .ckpt ⟨.refl _, rfl, rfl, rel_refl (fun _ => le_refl _) _, rfl, rfl⟩

theorem Spec.LevelUp.refl (p : Params) : LevelUp p p := ⟨fun _ _ => rfl, .inl rfl⟩

theorem UpD.refl (d : Det) : UpD d d :=
  ⟨rel_refl UpC.refl _, rel_refl UpM.refl _, rfl, rel_refl (fun _ => le_refl _) _, rfl, rfl, rfl, rfl⟩

theorem UpW.refl (w : World) : UpW w w := ⟨.refl _, fun _ => .refl _, .refl _⟩

/-! ### runs side by side -/

/-- Two runs side by side: the second stops with an IndexError, if `X` admits it; otherwise both leave related worlds, and stop alike or return results
related by `Q`. -/
def Up {α β} (X : Prop) (x : MM α) (y : MM β) (Q : α → β → Prop) : Prop :=
  ∀ w v, UpW w v → (X ∧ (y v).2 = .error (.err .indexError)) ∨
    (UpW (x w).1 (y v).1 ∧ ((∃ e, (x w).2 = .error e ∧ (y v).2 = .error e) ∨ ∃ a b, (x w).2 = .ok a ∧ (y v).2 = .ok b ∧ Q a b))

theorem Up.bind {α β γ δ} {X : Prop} {x : MM α} {y : MM β} {f : α → MM γ} {g : β → MM δ} {Q : α → β → Prop} {Q' : γ → δ → Prop} (h : Up X x y Q)
    (h' : ∀ a b, Q a b → Up X (f a) (g b) Q') : Up X (x >>= f) (y >>= g) Q' := by
  intro w v hwv
  have hb : ∀ {α β} (z : MM α) (k : α → MM β) (u : World), (z >>= k) u = MM.bind z k u := fun _ _ _ => rfl
  rw [hb, hb]
  unfold MM.bind
  have := h w v hwv
  rcases hx : x w with ⟨w1, r⟩
  rcases hy : y v with ⟨v1, s⟩
  rw [hx, hy] at this
  dsimp only at this
  rcases this with ⟨hX, rfl⟩ | ⟨hu, ⟨e, rfl, rfl⟩ | ⟨a, b, rfl, rfl, hq⟩⟩
  · exact .inl ⟨hX, rfl⟩
  · exact .inr ⟨hu, .inl ⟨e, rfl, rfl⟩⟩
  · exact h' a b hq w1 v1 hu

theorem Up.pure {α β} {X : Prop} {a : α} {b : β} {Q : α → β → Prop} (h : Q a b) : Up X (Pure.pure a) (Pure.pure b) Q :=
  fun _ _ hu => .inr ⟨hu, .inr ⟨a, b, rfl, rfl, h⟩⟩

theorem Up.throw {α β} {X : Prop} {Q : α → β → Prop} (e : PyErr) : Up X (MM.throw e) (MM.throw e) Q := fun _ _ hu => .inr ⟨hu, .inl ⟨_, rfl, rfl⟩⟩

theorem Up.of {α β} {X : Prop} {x : Except Stop α} {y : Except Stop β} {Q : α → β → Prop}
    (h : (∃ e, x = .error e ∧ y = .error e) ∨ ∃ a b, x = .ok a ∧ y = .ok b ∧ Q a b) : Up X (MM.of x) (MM.of y) Q :=
  fun _ _ hu => .inr ⟨hu, h⟩

theorem Up.same {α} {X : Prop} (x : Except Stop α) : Up X (MM.of x) (MM.of x) Eq := by
  refine Up.of ?_
  cases x with
  | error e => exact .inl ⟨e, rfl, rfl⟩
  | ok a => exact .inr ⟨a, a, rfl, rfl, rfl⟩

theorem Up.get {X : Prop} : Up X MM.get MM.get UpW := fun w v hu => .inr ⟨hu, .inr ⟨w, v, rfl, rfl, hu⟩⟩

theorem Up.det {X : Prop} {f g : Det → Det} (h : ∀ d d', UpD d d' → UpD (f d) (g d')) : Up X (MM.modifyDet f) (MM.modifyDet g) fun _ _ => True :=
  fun _ _ hu => .inr ⟨⟨h _ _ hu.det, hu.disk, hu.params⟩, .inr ⟨(), (), rfl, rfl, trivial⟩⟩

theorem Up.dict {X : Prop} {f : Params → Params} (h : ∀ p q, LevelUp p q → LevelUp (f p) (f q)) :
    Up X (MM.modifyParams f) (MM.modifyParams f) fun _ _ => True :=
  fun _ _ hu => .inr ⟨⟨hu.det, hu.disk, h _ _ hu.params⟩, .inr ⟨(), (), rfl, rfl, trivial⟩⟩

/-! ### processing -/

theorem Spec.LevelUp.of_level {p q p' q' : Params} (h : LevelUp p q) (hp : p' "level" = p "level") (hq : q' "level" = q "level")
    (hk : ∀ k, k ≠ "level" → p' k = q' k) : LevelUp p' q' := by
  refine ⟨hk, ?_⟩
  have := h.2
  unfold LevelOf at this ⊢
  rw [hp, hq]
  exact this

theorem Spec.LevelUp.set {p q : Params} (h : LevelUp p q) {k : String} (hk : k ≠ "level") (v : PyVal) : LevelUp (p.set k v) (q.set k v) := by
  refine h.of_level ?_ ?_ fun x hx => ?_
  · exact if_neg fun e => hk e.symm
  · exact if_neg fun e => hk e.symm
  · show (if x = k then some v else p x) = if x = k then some v else q x
    rw [h.1 x hx]

theorem level_read {p : Params} {l : ℚ} (h : LevelOf p l) : readRat p "level" (roundDouble (8 / 10)) = .ok l := by
  unfold readRat
  rcases h with ⟨h, rfl⟩ | ⟨v, h, h', h0⟩
  · rw [h]
  · rw [h]
    dsimp only
    rw [h']
    dsimp only
    rw [if_pos h0]

theorem level_nonneg {p : Params} {l : ℚ} (h : LevelOf p l) : 0 ≤ l := by
  rcases h with ⟨_, rfl⟩ | ⟨v, _, _, h0⟩
  · decide +kernel
  · exact h0

/-- reading `level` of both dicts -/
theorem read_up {p q : Params} (h : LevelUp p q) :
    (∃ e, readRat p "level" (roundDouble (8 / 10)) = .error e ∧ readRat q "level" (roundDouble (8 / 10)) = .error e) ∨
      ∃ a b, readRat p "level" (roundDouble (8 / 10)) = .ok a ∧ readRat q "level" (roundDouble (8 / 10)) = .ok b ∧ (a = b ∨ 0 ≤ a ∧ a ≤ b) := by
  rcases h.2 with h | ⟨l, l', h1, h2, h3⟩
  · have e : readRat p "level" (roundDouble (8 / 10)) = readRat q "level" (roundDouble (8 / 10)) := by
      unfold readRat
      rw [h]
    rw [e]
    cases readRat q "level" (roundDouble (8 / 10)) with
    | error e => exact .inl ⟨e, rfl, rfl⟩
    | ok a => exact .inr ⟨a, a, rfl, rfl, .inl rfl⟩
  · exact .inr ⟨l, l', level_read h1, level_read h2, .inr ⟨level_nonneg h1, h3⟩⟩

theorem ofParams_up {p q : Params} (h : LevelUp p q) (dim input tw : Nat) :
    (∃ e, Config.ofParams p dim input tw = .error e ∧ Config.ofParams q dim input tw = .error e) ∨
      ∃ a b, Config.ofParams p dim input tw = .ok a ∧ Config.ofParams q dim input tw = .ok b ∧ UpC a b := by
  have hN : ∀ k a b, k ≠ "level" → readNat p k a b = readNat q k a b := by
    intro k a b hk
    unfold readNat
    rw [h.1 k hk]
  have hI : readInt p "epochs" 100 = readInt q "epochs" 100 := by
    unfold readInt
    rw [h.1 _ (by decide)]
  have hS : readStr p "save" "model" = readStr q "save" "model" := by
    unfold readStr
    rw [h.1 _ (by decide)]
  have hR : ∀ k a, k ≠ "level" → readRat p k a = readRat q k a := by
    intro k a hk
    unfold readRat
    rw [h.1 k hk]
  unfold Config.ofParams
  rw [hN "cnn_kernel_size" _ _ (by decide), hN "gat_window_size" _ _ (by decide), hN "hidden_size" _ _ (by decide), hI,
    hN "batch_size" _ _ (by decide), hN "interval" _ _ (by decide), hN "horizon" _ _ (by decide), hS, hR "train_ratio" _ (by decide),
    hR "val_ratio" _ (by decide)]
  cases readNat q "cnn_kernel_size" 7 1 with
  | error e => exact .inl ⟨e, rfl, rfl⟩
  | ok => ?_
  cases readNat q "gat_window_size" 100 1 with
  | error e => exact .inl ⟨e, rfl, rfl⟩
  | ok => ?_
  cases readNat q "hidden_size" 100 1 with
  | error e => exact .inl ⟨e, rfl, rfl⟩
  | ok => ?_
  cases readInt q "epochs" 100 with
  | error e => exact .inl ⟨e, rfl, rfl⟩
  | ok => ?_
  cases readNat q "batch_size" 128 1 with
  | error e => exact .inl ⟨e, rfl, rfl⟩
  | ok => ?_
  cases readNat q "interval" 10 1 with
  | error e => exact .inl ⟨e, rfl, rfl⟩
  | ok => ?_
  cases readNat q "horizon" 1 1 with
  | error e => exact .inl ⟨e, rfl, rfl⟩
  | ok => ?_
  cases readStr q "save" "model" with
  | error e => exact .inl ⟨e, rfl, rfl⟩
  | ok => ?_
  cases readRat q "train_ratio" (roundDouble (8 / 10)) with
  | error e => exact .inl ⟨e, rfl, rfl⟩
  | ok => ?_
  cases readRat q "val_ratio" (roundDouble (1 / 10)) with
  | error e => exact .inl ⟨e, rfl, rfl⟩
  | ok => ?_
  rcases read_up h with ⟨e, h1, h2⟩ | ⟨a, b, h1, h2, hab⟩
  · rw [h1, h2]
    exact .inl ⟨e, rfl, rfl⟩
  · rw [h1, h2]
    refine .inr ⟨_, _, rfl, rfl, ?_, hab⟩
    unfold dropC
    dsimp only
    congr 1
    funext k
    split
    · rfl
    · rename_i hk
      exact h.1 k hk

theorem processData_up {TS} {X : Prop} (E : MEnv TS) (data : MData) :
    Up X (processData E data) (processData E data) fun r s => r.1 = s.1 ∧ r.2.1 = s.2.1 ∧ UpC r.2.2 s.2.2 := by
  unfold processData
  cases data with
  | other => exact Up.throw _
  | frame f =>
    refine Up.get.bind fun w v hwv => ?_
    rw [hwv.params.1 "fill_na_method" (by decide), hwv.params.1 "fill_na_value" (by decide), hwv.params.1 "sliding_window" (by decide)]
    refine (Up.same _).bind fun sizes _ hs => ?_
    subst hs
    refine (Up.dict fun p q h => ?_).bind fun _ _ _ => ?_
    · exact (h.set (by decide) _).set (by decide) _
    refine (Up.dict fun p q h => ?_).bind fun _ _ _ => ?_
    · refine h.of_level (if_pos (by decide)) (if_pos (by decide)) fun k hk => ?_
      rw [h.1 k hk]
    refine (Up.same _).bind fun proc _ hs => ?_
    subst hs
    split
    · refine (Up.same _).bind fun t _ ht => ?_
      subst ht
      refine (Up.dict fun p q h => h.set (by decide) _).bind fun _ _ _ => ?_
      refine Up.get.bind fun w v hwv => ?_
      refine (Up.of (ofParams_up hwv.params _ _ _)).bind fun c c' hc => ?_
      exact Up.pure ⟨rfl, rfl, hc⟩
    · exact Up.of (.inl ⟨_, rfl, rfl⟩)

/-! ### inference and thresholds -/

theorem inference_up {TS} (E : MEnv TS) {d d' : Det} (h : UpD d d') (values : List (List ℚ)) : inference E d values = inference E d' values := by
  obtain ⟨c, m, p, t, s1, s2, mp, v⟩ := d
  obtain ⟨c', m', p', t', s1', s2', mp', v'⟩ := d'
  obtain ⟨hc, hm, rfl, -, -, -, -, -⟩ := h
  dsimp only at hc hm
  unfold inference
  dsimp only
  cases hc with
  | none => rfl
  | some hc =>
    rename_i c c'
    have e1 : c.base = c'.base := congrArg (·.base) hc.rest
    have e2 : c.inputSize = c'.inputSize := congrArg (·.inputSize) hc.rest
    have e3 : c.batchSize = c'.batchSize := congrArg (·.batchSize) hc.rest
    dsimp only
    rw [e1]
    cases c'.base with
    | none => rfl
    | some base =>
      dsimp only
      have e4 : inferSet c base values = inferSet c' base values := by
        unfold inferSet
        rw [e2]
      rw [e3, e4]
      cases hm with
      | none => rfl
      | some hm =>
        rename_i m m'
        obtain ⟨mc, n⟩ := m
        obtain ⟨mc', n'⟩ := m'
        obtain ⟨hmc, hn⟩ := hm
        dsimp only at hmc hn
        subst hn
        cases n with
        | none => rfl
        | some N =>
          cases p with
          | none => rfl
          | some pct =>
            dsimp only
            have : inferBatch E.toNumEnv mc N pct = inferBatch E.toNumEnv mc' N pct := by
              show inferBatch E.toNumEnv (dropC mc) N pct = inferBatch E.toNumEnv (dropC mc') N pct
              rw [hmc.rest]
            rw [this]

theorem intMul_mono {n : Nat} {a b : ℚ} (h0 : 0 ≤ a) (h : a ≤ b) : 0 ≤ intMul n a ∧ intMul n a ≤ intMul n b := by
  have h1 : dmul n a ≤ dmul n b := roundSigned_mono (mul_le_mul_of_nonneg_left h (Nat.cast_nonneg n))
  have h2 : 0 ≤ dmul n a := by
    have := roundSigned_mono (mul_nonneg (Nat.cast_nonneg n) h0 : (0 : ℚ) ≤ (n : ℚ) * a)
    rwa [show roundSigned 0 = 0 by decide +kernel] at this
  unfold intMul pyInt
  rw [if_pos h2, if_pos (h2.trans h1)]
  exact ⟨Rat.le_floor_iff.2 (by simpa using h2), Rat.le_floor_iff.2 ((Rat.floor_le _).trans h1)⟩

/-- entries of an ascending list ascend -/
theorem pyIndex_up {l : List ℚ} (hl : l.Pairwise (· ≤ ·)) {i j : Int} (h0 : 0 ≤ i) (h : i ≤ j) :
    pyIndex l j = .error .indexError ∨ ∃ a b, pyIndex l i = .ok a ∧ pyIndex l j = .ok b ∧ a ≤ b := by
  unfold pyIndex
  rw [if_neg (not_lt.2 h0), if_neg (not_lt.2 (h0.trans h))]
  dsimp only
  rw [if_neg (not_lt.2 h0), if_neg (not_lt.2 (h0.trans h))]
  have hij : i.toNat ≤ j.toNat := Int.toNat_le_toNat h
  rcases Nat.lt_or_ge j.toNat l.length with hj | hj
  · rw [List.getElem?_eq_getElem hj, List.getElem?_eq_getElem (hij.trans_lt hj)]
    refine .inr ⟨_, _, rfl, rfl, ?_⟩
    rcases hij.lt_or_eq with hlt | heq
    · exact List.pairwise_iff_getElem.1 hl _ _ _ _ hlt
    · simp only [heq, le_refl]
  · rw [List.getElem?_eq_none hj]
    exact .inl rfl

theorem thresholds_up {TS} (E : MEnv TS) {d d' : Det} (h : UpD d d') (values : List (List ℚ)) :
    computeThresholds E d' values = .error (.err .indexError) ∨
      (∃ e, computeThresholds E d values = .error e ∧ computeThresholds E d' values = .error e) ∨
      ∃ r s, computeThresholds E d values = .ok r ∧ computeThresholds E d' values = .ok s ∧ r.1 ≤ s.1 ∧ r.2 = s.2 := by
  unfold computeThresholds
  rw [inference_up E h]
  cases inference E d' values with
  | error e => exact .inr (.inl ⟨e, rfl, rfl⟩)
  | ok o =>
    obtain ⟨o1, o2, o3⟩ := o
    have hc := h.config
    obtain ⟨c, m, p, t, s1, s2, mp, v⟩ := d
    obtain ⟨c', m', p', t', s1', s2', mp', v'⟩ := d'
    dsimp only at hc
    cases o2 with
    | none => exact .inr (.inl ⟨_, rfl, rfl⟩)
    | some scores =>
      cases hc with
      | none => exact .inr (.inl ⟨_, rfl, rfl⟩)
      | some hc =>
        rename_i c c'
        have hb : ∀ x : Config, (do
            let th ← lift (pyIndex (sortQ scores) (intMul scores.length x.level))
            pure (th, npMax scores, npMin scores) : Except Stop (ℚ × ℚ × ℚ)) =
            match pyIndex (sortQ scores) (intMul scores.length x.level) with
            | .ok th => .ok (th, npMax scores, npMin scores)
            | .error e => .error (.err e) := by
          intro x
          cases pyIndex (sortQ scores) (intMul scores.length x.level) <;> rfl
        show (do
            let th ← lift (pyIndex (sortQ scores) (intMul scores.length c'.level))
            pure (th, npMax scores, npMin scores) : Except Stop (ℚ × ℚ × ℚ)) = _ ∨
          (∃ e, (do
            let th ← lift (pyIndex (sortQ scores) (intMul scores.length c.level))
            pure (th, npMax scores, npMin scores) : Except Stop (ℚ × ℚ × ℚ)) = _ ∧ (do
            let th ← lift (pyIndex (sortQ scores) (intMul scores.length c'.level))
            pure (th, npMax scores, npMin scores) : Except Stop (ℚ × ℚ × ℚ)) = _) ∨
          ∃ r s, (do
            let th ← lift (pyIndex (sortQ scores) (intMul scores.length c.level))
            pure (th, npMax scores, npMin scores) : Except Stop (ℚ × ℚ × ℚ)) = _ ∧ (do
            let th ← lift (pyIndex (sortQ scores) (intMul scores.length c'.level))
            pure (th, npMax scores, npMin scores) : Except Stop (ℚ × ℚ × ℚ)) = _ ∧ _
        rw [hb, hb]
        rcases hc.level with hl | ⟨h0, hl⟩
        · rw [hl]
          cases pyIndex (sortQ scores) (intMul scores.length c'.level) with
          | error e => exact .inr (.inl ⟨_, rfl, rfl⟩)
          | ok a => exact .inr (.inr ⟨_, _, rfl, rfl, le_refl _, rfl⟩)
        · obtain ⟨hi0, hij⟩ := intMul_mono (n := scores.length) h0 hl
          rcases pyIndex_up (sortQ_sorted scores) hi0 hij with he | ⟨a, b, ha, hb, hab⟩
          · rw [he]
            exact .inl rfl
          · rw [ha, hb]
            exact .inr (.inr ⟨_, _, rfl, rfl, hab, rfl⟩)

/-! ### detection -/

theorem mapM_rel {α β γ ε} {R : β → γ → Prop} {f : α → Except ε β} {g : α → Except ε γ} {l : List α}
    (h : ∀ a ∈ l, (∃ e, f a = .error e ∧ g a = .error e) ∨ ∃ b c, f a = .ok b ∧ g a = .ok c ∧ R b c) :
    (∃ e, l.mapM f = .error e ∧ l.mapM g = .error e) ∨ ∃ r s, l.mapM f = .ok r ∧ l.mapM g = .ok s ∧ List.Forall₂ R r s := by
  induction l with
  | nil => exact .inr ⟨[], [], rfl, rfl, .nil⟩
  | cons a l ih =>
    rw [List.mapM_cons, List.mapM_cons]
    rcases h a (.head _) with ⟨e, h1, h2⟩ | ⟨b, c, h1, h2, hbc⟩
    · rw [h1, h2]
      exact .inl ⟨e, rfl, rfl⟩
    · rw [h1, h2]
      rcases ih fun x hx => h x (.tail _ hx) with ⟨e, h3, h4⟩ | ⟨r, s, h3, h4, hrs⟩
      · rw [h3, h4]
        exact .inl ⟨e, rfl, rfl⟩
      · rw [h3, h4]
        exact .inr ⟨_, _, rfl, rfl, .cons hbc hrs⟩

/-- severities of fewer anomalies -/
theorem severity_fewer (S : List ℚ) {A B : List Bool} (hlen : A.length = B.length) (h : ∀ k, B.getD k false = true → A.getD k false = true) (k : Nat) :
    (List.zipWith (fun s a => if a then s else 0) S B).getD k 0 =
      if B.getD k false then (List.zipWith (fun (s : ℚ) a => if a then s else 0) S A).getD k 0 else 0 := by
  have hk := h k
  simp only [List.getD_eq_getElem?_getD, List.getElem?_zipWith] at hk ⊢
  rcases Nat.lt_or_ge k B.length with hb | hb
  · have ha : k < A.length := by omega
    rw [List.getElem?_eq_getElem hb, List.getElem?_eq_getElem ha] at hk
    rw [List.getElem?_eq_getElem (l := B) hb, List.getElem?_eq_getElem (l := A) ha]
    cases S[k]? with
    | none => simp
    | some s =>
      simp only [Option.getD_some] at hk ⊢
      cases hB : B[k] with
      | false => rfl
      | true =>
        rw [hk hB]
        rfl
  · rw [List.getElem?_eq_none hb]
    cases S[k]? <;> simp

theorem packResponse_fewer (E : NumEnv) (index : List Int) (vars : List String) {A B : List Bool} (hlen : A.length = B.length)
    (h : ∀ k, B.getD k false = true → A.getD k false = true) (scores S : List ℚ) (contrib : List (List PyFloat)) (attn : List (List (List ℚ))) :
    (∃ e, packResponse E index vars A scores (List.zipWith (fun s a => if a then s else 0) S A) contrib attn = .error e ∧
      packResponse E index vars B scores (List.zipWith (fun s a => if a then s else 0) S B) contrib attn = .error e) ∨
      ∃ r s, packResponse E index vars A scores (List.zipWith (fun s a => if a then s else 0) S A) contrib attn = .ok r ∧
        packResponse E index vars B scores (List.zipWith (fun s a => if a then s else 0) S B) contrib attn = .ok s ∧ List.Forall₂ FewerItem r s := by
  unfold packResponse
  rw [hlen]
  split
  · exact .inl ⟨_, rfl, rfl⟩
  · refine mapM_rel fun k _ => ?_
    unfold packItem
    cases (E.argsortDesc (contrib.getD k [])).mapM (packVar E vars (contrib.getD k []) (attn.getD k [])) with
    | error e => exact .inl ⟨e, rfl, rfl⟩
    | ok i => exact .inr ⟨_, _, rfl, rfl, ⟨rfl, rfl, rfl, h k, severity_fewer S hlen h k⟩⟩

theorem decide_mono {a b s t : ℚ} (h : a ≤ b) (hd : decideAnomaly (min (3 / 10) b) (max (1 / 2) b) s t = true) :
    decideAnomaly (min (3 / 10) a) (max (1 / 2) a) s t = true := by
  unfold decideAnomaly at hd ⊢
  simp only [Bool.or_eq_true, Bool.and_eq_true, decide_eq_true_eq] at hd ⊢
  rcases hd with ⟨h1, h2⟩ | h1
  · exact .inl ⟨h1, (min_le_min_left _ h).trans h2⟩
  · exact .inr ((max_le_max_left _ h).trans_lt h1)

theorem decisions_mono {a b : ℚ} (h : a ≤ b) (S T : List ℚ) (k : Nat)
    (hd : (List.zipWith (decideAnomaly (min (3 / 10) b) (max (1 / 2) b)) S T).getD k false = true) :
    (List.zipWith (decideAnomaly (min (3 / 10) a) (max (1 / 2) a)) S T).getD k false = true := by
  simp only [List.getD_eq_getElem?_getD, List.getElem?_zipWith] at hd ⊢
  cases hS : S[k]? with
  | none => simp [hS] at hd
  | some s =>
    cases hT : T[k]? with
    | none => simp [hS, hT] at hd
    | some t =>
      simp only [hS, hT, Option.getD_some] at hd ⊢
      exact decide_mono h hd

theorem detectWith_up {TS} (E : MEnv TS) {d d' : Det} (h : UpD d d') (f : Frame) (t : Table) :
    (∃ e, detectWith E d f t = .error e ∧ detectWith E d' f t = .error e) ∨
      ∃ r s, detectWith E d f t = .ok r ∧ detectWith E d' f t = .ok s ∧ List.Forall₂ FewerItem r s := by
  unfold detectWith
  simp only [inference_up E h]
  have hc := h.config
  have ht := h.threshold
  revert hc ht
  generalize d.config = c, d'.config = c', d.threshold = th, d'.threshold = th'
  intro hc ht
  cases hc with
  | none => exact .inl ⟨_, rfl, rfl⟩
  | some hc =>
    rename_i c c'
    dsimp only
    rw [show c.thresholdWindow = c'.thresholdWindow from congrArg (·.thresholdWindow) hc.rest,
      show c.inputSize = c'.inputSize from congrArg (·.inputSize) hc.rest]
    split
    · exact .inl ⟨_, rfl, rfl⟩
    · cases ht with
      | none => exact .inl ⟨_, rfl, rfl⟩
      | some ht =>
        rename_i a b
        dsimp only
        cases inference E d' t.rows with
        | error e => exact .inl ⟨e, rfl, rfl⟩
        | ok o =>
          obtain ⟨o1, o2, o3⟩ := o
          cases o1 with
          | none => exact .inl ⟨_, rfl, rfl⟩
          | some contrib =>
            cases o2 with
            | none => exact .inl ⟨_, rfl, rfl⟩
            | some scores =>
              cases o3 with
              | none => exact .inl ⟨_, rfl, rfl⟩
              | some attn =>
                dsimp only [bind, Except.bind]
                cases dynThresholds c'.thresholdWindow scores with
                | error e => exact .inl ⟨_, rfl, rfl⟩
                | ok ths =>
                  dsimp only [lift]
                  have hlen : (List.zipWith (decideAnomaly (min (3 / 10) a) (max (1 / 2) a)) (scores.drop (c'.thresholdWindow - 1)) ths).length =
                      (List.zipWith (decideAnomaly (min (3 / 10) b) (max (1 / 2) b)) (scores.drop (c'.thresholdWindow - 1)) ths).length := by
                    simp only [List.length_zipWith]
                  rw [hlen]
                  rcases packResponse_fewer E.toNumEnv f.index t.names hlen (fun k => decisions_mono ht _ _ k) (scores.drop (c'.thresholdWindow - 1))
                    (severityOf E.toNumEnv (scores.drop (c'.thresholdWindow - 1)))
                    ((contrib.map fun r => r.map fun x => npDiv x r.sum).drop (c'.thresholdWindow - 1))
                    (attnChange c'.thresholdWindow
                      (List.zipWith (decideAnomaly (min (3 / 10) b) (max (1 / 2) b)) (scores.drop (c'.thresholdWindow - 1)) ths).length attn)
                    with ⟨e, h1, h2⟩ | ⟨r, s, h1, h2, h3⟩
                  · rw [h1, h2]
                    exact .inl ⟨_, rfl, rfl⟩
                  · rw [h1, h2]
                    exact .inr ⟨r, s, rfl, rfl, h3⟩

/-! ### the training -/

/-- training and evaluation of the environment do not read `level` -/
structure Levelless {TS} (E : MEnv TS) : Prop where
  init : ∀ c, E.initState (dropC c) = E.initState c
  step : ∀ c ts b, E.step (dropC c) ts b = E.step c ts b
  weights : ∀ c ts, E.weights (dropC c) ts = E.weights c ts
  loss : ∀ c n b, E.evalLoss (dropC c) n b = E.evalLoss c n b

theorem env_levelless {G O} (L : TrainEnv G O) : Levelless L.env := ⟨fun _ => rfl, fun _ _ _ => rfl, fun _ _ => rfl, fun _ _ _ => rfl⟩

theorem loadCheckpoint_up {X : Prop} (path : Option String) : Up X (loadCheckpoint path) (loadCheckpoint path) fun _ _ => True := by
  unfold loadCheckpoint
  refine Up.get.bind fun w v hwv => ?_
  cases path with
  | none => exact Up.throw _
  | some p =>
    dsimp only
    have hf := hwv.disk p
    revert hf
    generalize w.disk p = f, v.disk p = f'
    intro hf
    cases hf with
    | missing => exact Up.throw _
    | garbage => exact Up.throw _
    | ckpt hk =>
      refine Up.det fun d d' hd => ?_
      exact ⟨.some hk.config, .some ⟨hk.config, hk.net⟩, hk.pct, hk.threshold, hk.scoreMax, hk.scoreMin, hd.modelPath, hd.vars⟩

theorem ensureModel_up {X : Prop} (hX : ¬ X) : Up X ensureModel ensureModel fun _ _ => True := by
  intro w v hwv
  have hl := loadCheckpoint_up (X := X) w.det.modelPath w v hwv
  unfold ensureModel
  rw [← hwv.det.modelPath]
  revert hl
  generalize loadCheckpoint w.det.modelPath w = x, loadCheckpoint w.det.modelPath v = y
  intro hl
  have hm := hwv.det.model
  revert hm
  generalize w.det.model = m, v.det.model = m'
  intro hm
  cases hm with
  | some _ => exact .inr ⟨hwv, .inr ⟨(), (), rfl, rfl, trivial⟩⟩
  | none =>
    dsimp only
    obtain ⟨w1, r⟩ := x
    obtain ⟨v1, s⟩ := y
    dsimp only at hl
    rcases hl with ⟨h, _⟩ | ⟨hu, ⟨e, rfl, rfl⟩ | ⟨a, b, rfl, rfl, _⟩⟩
    · exact absurd h hX
    · exact .inr ⟨hu, .inl ⟨_, rfl, rfl⟩⟩
    · exact .inr ⟨hu, .inr ⟨(), (), rfl, rfl, trivial⟩⟩

theorem saveCheckpoint_up {X : Prop} {c c' : Config} (h : UpC c c') (net : Option Net) :
    Up X (saveCheckpoint c net) (saveCheckpoint c' net) fun _ _ => True := by
  unfold saveCheckpoint
  refine Up.get.bind fun w v hwv => ?_
  rw [hwv.det.modelPath]
  intro w1 v1 hu
  refine .inr ⟨⟨hu.det, fun x => ?_, hu.params⟩, .inr ⟨(), (), rfl, rfl, trivial⟩⟩
  show UpF (if x = _ then _ else w1.disk x) (if x = _ then _ else v1.disk x)
  split
  · exact .ckpt ⟨h, rfl, hwv.det.pct, hwv.det.threshold, hwv.det.scoreMax, hwv.det.scoreMin⟩
  · exact hu.disk x

theorem epoch_up {TS} {X : Prop} {E : MEnv TS} (hE : Levelless E) {c c' : Config} (h : UpC c c') (train val : List Sample) (s : TS × PyFloat) :
    Up X (epoch E c train val s) (epoch E c' train val s) Eq := by
  have hr := h.rest
  have e1 : trainError c train = trainError c' train := by
    show trainError (dropC c) train = trainError (dropC c') train
    rw [hr]
  have e2 : evalError c val = evalError c' val := by
    show evalError (dropC c) val = evalError (dropC c') val
    rw [hr]
  have e3 : c.batchSize = c'.batchSize := congrArg (·.batchSize) hr
  have e4 : trainEpoch E c train s.1 = trainEpoch E c' train s.1 := by
    unfold trainEpoch
    rw [e3]
    simp only [← hE.step c, ← hE.step c', hr]
  have e5 : ∀ ts, E.weights c ts = E.weights c' ts := fun ts => by rw [← hE.weights c, ← hE.weights c', hr]
  have e6 : ∀ n bs, evalEpoch E c n bs = evalEpoch E c' n bs := by
    intro n bs
    unfold evalEpoch
    simp only [← hE.loss c, ← hE.loss c', hr]
  unfold epoch
  rw [e1, e2, e3, e4]
  simp only [e5, e6]
  cases trainError c' train with
  | some e => exact Up.throw _
  | none =>
    dsimp only
    cases evalError c' val with
    | some e => exact Up.throw _
    | none =>
      dsimp only
      split
      · refine (Up.det fun d d' hd => ?_).bind fun _ _ _ => ?_
        · exact ⟨hd.config, .some ⟨h, rfl⟩, hd.pct, hd.threshold, hd.scoreMax, hd.scoreMin, hd.modelPath, hd.vars⟩
        exact (saveCheckpoint_up h _).bind fun _ _ _ => Up.pure rfl
      · exact Up.pure rfl

theorem epochs_up {TS} {X : Prop} {E : MEnv TS} (hE : Levelless E) {c c' : Config} (h : UpC c c') (train val : List Sample) (n : Nat) :
    ∀ s : TS × PyFloat, Up X (epochs E c train val n s) (epochs E c' train val n s) Eq := by
  induction n with
  | zero => exact fun s => Up.pure rfl
  | succ n ih =>
    intro s
    unfold epochs
    refine (epoch_up hE h train val s).bind fun r _ hr => ?_
    subst hr
    exact ih r

theorem fit_up {TS} {E : MEnv TS} (hE : Levelless E) (data : MData) : Up True (Multi.fit E data) (Multi.fit E data) fun _ _ => True := by
  unfold Multi.fit
  refine (processData_up E data).bind fun r r' hr => ?_
  obtain ⟨f, t, c⟩ := r
  obtain ⟨f', t', c'⟩ := r'
  obtain ⟨hf, ht, hc⟩ := hr
  dsimp only at hf ht hc ⊢
  subst hf ht
  have hrest := hc.rest
  refine (Up.det fun d d' hd => ?_).bind fun _ _ _ => ?_
  · exact ⟨.some hc, hd.model, hd.pct, hd.threshold, hd.scoreMax, hd.scoreMin, hd.modelPath, rfl⟩
  obtain ⟨dim, kernel, input, gat, hidden, ep, batch, interval, horizon, save, tr, vr, base0, tw, level, extra⟩ := c
  obtain ⟨dim', kernel', input', gat', hidden', ep', batch', interval', horizon', save', tr', vr', base0', tw', level', extra'⟩ := c'
  simp only [dropC, Config.mk.injEq] at hrest
  obtain ⟨rfl, rfl, rfl, rfl, rfl, rfl, rfl, rfl, rfl, rfl, rfl, rfl, rfl, rfl, -, hextra⟩ := hrest
  dsimp only
  refine (Up.same _).bind fun pct _ hp => ?_
  subst hp
  refine (Up.det fun d d' hd => ?_).bind fun _ _ _ => ?_
  · exact ⟨hd.config, hd.model, rfl, hd.threshold, hd.scoreMax, hd.scoreMin, rfl, hd.vars⟩
  have hs : ∀ l l' x x', split ⟨dim, kernel, input, gat, hidden, ep, batch, interval, horizon, save, tr, vr, base0, tw, l, x⟩ t.rows =
    split ⟨dim, kernel, input, gat, hidden, ep, batch, interval, horizon, save, tr, vr, base0, tw, l', x'⟩ t.rows := fun _ _ _ _ => rfl
  rw [hs level level' extra extra']
  rcases split ⟨dim, kernel, input, gat, hidden, ep, batch, interval, horizon, save, tr, vr, base0, tw, level', extra'⟩ t.rows with ⟨train, val⟩
  dsimp only
  split
  · exact Up.throw _
  · generalize (colFold npMax dim train, colFold npMin dim train) = base
    have hb : UpC ⟨dim, kernel, input, gat, hidden, ep, batch, interval, horizon, save, tr, vr, some base, tw, level, extra⟩
        ⟨dim, kernel, input, gat, hidden, ep, batch, interval, horizon, save, tr, vr, some base, tw, level', extra'⟩ := by
      refine ⟨?_, hc.level⟩
      unfold dropC
      dsimp only
      rw [hextra]
    refine (Up.det fun d d' hd => ?_).bind fun _ _ _ => ?_
    · exact ⟨.some hb, hd.model, hd.pct, hd.threshold, hd.scoreMax, hd.scoreMin, hd.modelPath, hd.vars⟩
    have ei := hE.init ⟨dim, kernel, input, gat, hidden, ep, batch, interval, horizon, save, tr, vr, some base, tw, level, extra⟩
    rw [hb.rest, hE.init] at ei
    rw [← ei]
    unfold trainSet inferSet
    dsimp only
    refine (Up.same _).bind fun ts _ h => ?_
    subst h
    refine (Up.same _).bind fun vs _ h => ?_
    subst h
    split
    · exact Up.throw _
    · refine (epochs_up hE hb ts vs _ _).bind fun _ _ _ => ?_
      refine (loadCheckpoint_up _).bind fun _ _ _ => ?_
      refine Up.get.bind fun w v hwv => ?_
      have hth := thresholds_up E hwv.det train
      revert hth
      generalize computeThresholds E w.det train = x, computeThresholds E v.det train = y
      intro hth
      rcases hth with rfl | hth | hth
      · exact fun _ _ _ => .inl ⟨trivial, rfl⟩
      · refine (Up.of (Q := fun r s => r.1 ≤ s.1 ∧ r.2 = s.2) (.inl hth)).bind fun r s hrs => Up.det fun d d' hd => ?_
        exact ⟨hd.config, hd.model, hd.pct, .some hrs.1, congrArg (fun q => some q.1) hrs.2, congrArg (fun q => some q.2) hrs.2, hd.modelPath, hd.vars⟩
      · refine (Up.of (.inr hth)).bind fun r s hrs => Up.det fun d d' hd => ?_
        exact ⟨hd.config, hd.model, hd.pct, .some hrs.1, congrArg (fun q => some q.1) hrs.2, congrArg (fun q => some q.2) hrs.2, hd.modelPath, hd.vars⟩

theorem predict_up {TS} (E : MEnv TS) (data : MData) : Up False (Multi.predict E data) (Multi.predict E data) (List.Forall₂ FewerItem) := by
  unfold Multi.predict
  refine (processData_up E data).bind fun r r' hr => ?_
  obtain ⟨f, t, c⟩ := r
  obtain ⟨f', t', c'⟩ := r'
  obtain ⟨hf, ht, hc⟩ := hr
  dsimp only at hf ht hc ⊢
  subst hf ht
  refine (ensureModel_up not_false).bind fun _ _ _ => ?_
  refine Up.get.bind fun w v hwv => ?_
  exact Up.of (detectWith_up E hwv.det f t)

/-! ### programs -/

theorem call_up {TS} {E : MEnv TS} (hE : Levelless E) {w v : World} (hw : UpW w v) {c c' : Call} (hc : Raised c c')
    (hx : ∀ data, c' = .fit data → (doCall E v c').2 ≠ .error (.err .indexError)) :
    UpW (doCall E w c).1 (doCall E v c').1 ∧ Fewer (doCall E w c).2 (doCall E v c').2 := by
  cases hc with
  | params h => exact ⟨⟨hw.det, hw.disk, h⟩, .ok .nil⟩
  | same =>
    cases c with
    | params p => exact ⟨⟨hw.det, hw.disk, .refl p⟩, .ok .nil⟩
    | fit data =>
      have hx := hx data rfl
      rcases fit_up hE data w v hw with ⟨_, h⟩ | ⟨hu, h⟩
      · refine absurd ?_ hx
        dsimp only [doCall]
        rw [h]
        rfl
      · refine ⟨hu, ?_⟩
        dsimp only [doCall]
        rcases h with ⟨e, h1, h2⟩ | ⟨a, b, h1, h2, _⟩
        · rw [h1, h2]
          exact .error e
        · rw [h1, h2]
          exact .ok .nil
    | predict data =>
      rcases predict_up E data w v hw with ⟨h, _⟩ | ⟨hu, h⟩
      · exact h.elim
      · refine ⟨hu, ?_⟩
        dsimp only [doCall]
        rcases h with ⟨e, h1, h2⟩ | ⟨a, b, h1, h2, h3⟩
        · rw [h1, h2]
          exact .error e
        · rw [h1, h2]
          exact .ok h3
    | load path =>
      rcases loadCheckpoint_up (X := False) path w v hw with ⟨h, _⟩ | ⟨hu, h⟩
      · exact h.elim
      · refine ⟨hu, ?_⟩
        dsimp only [doCall]
        rcases h with ⟨e, h1, h2⟩ | ⟨a, b, h1, h2, _⟩
        · rw [h1, h2]
          exact .error e
        · rw [h1, h2]
          exact .ok .nil
    | path s =>
      have hd := hw.det
      exact ⟨⟨⟨hd.config, hd.model, hd.pct, hd.threshold, hd.scoreMax, hd.scoreMin, rfl, hd.vars⟩, hw.disk, hw.params⟩, .ok .nil⟩
    | file s f =>
      refine ⟨⟨hw.det, fun x => ?_, hw.params⟩, .ok .nil⟩
      show UpF (if x = s then f else w.disk x) (if x = s then f else v.disk x)
      split
      · exact .refl f
      · exact hw.disk x
    | new => exact ⟨⟨.refl _, hw.disk, hw.params⟩, .ok .nil⟩

theorem outcomes_up {TS} {E : MEnv TS} (hE : Levelless E) {cs cs' : List Call} (h : List.Forall₂ Raised cs cs') : ∀ {w v : World}, UpW w v →
    (∀ (i : Nat) data, cs'[i]? = some (Call.fit data) → (outcomes E v cs')[i]? ≠ some (.error (.err .indexError))) →
    List.Forall₂ Fewer (outcomes E w cs) (outcomes E v cs') := by
  induction h with
  | nil => exact fun _ _ => .nil
  | cons hc _ ih =>
    intro w v hw hx
    obtain ⟨h1, h2⟩ := call_up hE hw hc fun data hd he => hx 0 data (congrArg some hd) (congrArg some he)
    exact .cons h2 (ih h1 fun i data hi => hx (i + 1) data hi)

/-- **C127**. Two programs that do the same with detectors (any sequence of `fit`, `predict`, loading of checkpoints, new detectors, replaced files, changes of the
params dict) but for `level`, of which the second asks for no lower levels than the first: if no `fit` of the second raises IndexError, every call raises the
same in both, or returns; and the results of a `predict` have the same index, score and interpretation in both, an anomaly of the second is one of the first, with the
same severity, and the severity of the other results of the second is 0. -/
theorem C127_level {G O} (L : TrainEnv G O) (w : World) {cs cs' : List Call} (h : List.Forall₂ Raised cs cs')
    (hx : ∀ (i : Nat) data, cs'[i]? = some (Call.fit data) → (outcomes L.env w cs')[i]? ≠ some (.error (.err .indexError))) :
    List.Forall₂ Fewer (outcomes L.env w cs) (outcomes L.env w cs') :=
  outcomes_up (env_levelless L) h (.refl w) hx

/-- **C127**. If the training with the higher level returns, so does the one with the lower level, and the weights are the same. -/
theorem C127_weights {G O} (L : TrainEnv G O) (w : World) {p q : Params} (h : LevelUp p q) (data : MData)
    (hx : (Multi.fit L.env data { w with params := q }).2 = .ok ()) :
    (Multi.fit L.env data { w with params := p }).2 = .ok () ∧
      (Multi.fit L.env data { w with params := p }).1.det.model.map (·.net) = (Multi.fit L.env data { w with params := q }).1.det.model.map (·.net) := by
  have hw : UpW { w with params := p } { w with params := q } := ⟨.refl _, fun _ => .refl _, h⟩
  rcases fit_up (env_levelless L) data _ _ hw with ⟨_, h'⟩ | ⟨hu, ⟨e, h1, h2⟩ | ⟨a, b, h1, h2, _⟩⟩
  · rw [hx] at h'
    cases h'
  · rw [hx] at h2
    cases h2
  · refine ⟨h1, ?_⟩
    have hm := hu.det.model
    revert hm
    generalize (Multi.fit L.env data { w with params := p }).1.det.model = m, (Multi.fit L.env data { w with params := q }).1.det.model = m'
    intro hm
    cases hm with
    | none => rfl
    | some hm => exact congrArg some hm.net

/-! ### a concrete case -/

/-- params with this level -/
def levelParams (l : ℚ) : Params := fun k => if k = "level" then some (.float (.fin l)) else trainParams k

/-- a program that trains with one level, and predicts -/
def levelCalls (l : ℚ) : List Call := [.params (levelParams l), .fit (.frame demoTrain), .params trainParams, .predict (.frame demoTest)]

theorem levelCalls_raised : List.Forall₂ Raised (levelCalls 0) (levelCalls (9 / 10)) := by
  refine .cons (.params ⟨fun k hk => ?_, .inr ⟨0, 9 / 10, ?_, ?_, by norm_num⟩⟩) (.cons (.same _) (.cons (.same _) (.cons (.same _) .nil)))
  · simp only [levelParams, if_neg hk]
  · exact .inr ⟨_, rfl, rfl, le_refl _⟩
  · exact .inr ⟨_, rfl, rfl, by norm_num⟩

/-- levels 0 and 0.9: all calls return, and three of four rows are anomalies with the first, two with the second -/
example : List.Forall₂ Raised (levelCalls 0) (levelCalls (9 / 10)) ∧
    (match outcomes demoT.env ⟨{}, fun _ => .missing, fun _ => none⟩ (levelCalls 0) with
      | [.ok _, .ok _, .ok _, .ok l] => l.map (·.isAnomaly)
      | _ => []) = [false, true, true, true] ∧
    (match outcomes demoT.env ⟨{}, fun _ => .missing, fun _ => none⟩ (levelCalls (9 / 10)) with
      | [.ok _, .ok _, .ok _, .ok l] => l.map (·.isAnomaly)
      | _ => []) = [false, true, false, true] :=
  ⟨levelCalls_raised, by decide +kernel, by decide +kernel⟩

/-- with level 1 the training raises IndexError: the hypothesis about it cannot be omitted -/
example : (match outcomes demoT.env ⟨{}, fun _ => .missing, fun _ => none⟩ (levelCalls 1) with
      | [.ok _, .error (.err .indexError), .ok _, .error _] => true
      | _ => false) = true := by decide +kernel

end Verif
