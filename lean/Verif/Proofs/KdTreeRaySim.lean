import Verif.Proofs.KdTreeRay
import Verif.Spec.Query

/-! The loop of the ray query visits the leaves on the ray. -/

set_option linter.unusedSectionVars false

namespace MGL.KdTree
variable {T α : Type*} [Field α] [LinearOrder α] [IsStrictOrderedRing α]

/-- The end of a part as a floating point number. -/
def toFX : Option α → FX α
  | none => .posInf
  | some t => .fin t

/-- A part as the arguments of the callback. -/
def toCall (c : ℕ × α × Option α) : RayCall α := ⟨c.1, .fin c.2.1, toFX c.2.2⟩

/-- The position at the end of a part. -/
def posFX (pos dir : V3 α) (tx : Option α) (a : Fin 3) : FX α :=
  match tx with
  | none => FX.infOfSign (dir.get a)
  | some t => .fin (rayAt pos dir t a)

/-- No split is between a crossing of another split and 1/10000 in front of it. -/
def Generic (pos dir : V3 α) (S : List (Fin 3 × α)) : Prop :=
  ∀ a ∈ S, ∀ b ∈ S, ¬(b.2 < rayAt pos dir (crossing pos dir a.1 a.2) b.1 ∧
    rayAt pos dir (crossing pos dir a.1 a.2) b.1 < b.2 + 1 / 10000)

/-- The distance where the top of the stack is left. -/
def topT (ch : List (α × KdT α)) : Option α := match ch with | [] => none | c :: _ => some c.1

variable {s : KdTree T α} {P Q : ℕ → Prop} {pos dir : V3 α}

/-- The stack below the exit point `e` holds the trees `ch`. -/
def Chain (s : KdTree T α) (P Q : ℕ → Prop) (pos dir : V3 α) (S : List (Fin 3 × α)) (stack : ℕ → RayElem α) : ℕ → List (α × KdT α) → Prop
  | e, [] => e = 1 ∧ (stack 1).node = none ∧ (stack 1).t = .posInf ∧ (stack 1).pos = posFX pos dir none
  | e, c :: ch => (∃ i, (stack e).node = some i ∧ Rep s P Q i c.2) ∧ (stack e).t = .fin c.1 ∧
      (stack e).pos = posFX pos dir (some c.1) ∧ (stack e).prev < e ∧ e ≤ (stack e).prev + 2 ∧
      (∃ a ∈ S, c.1 = crossing pos dir a.1 a.2) ∧ c.2.splits ⊆ S ∧ ch.length + c.2.height ≤ 30 ∧
      Chain s P Q pos dir S stack (stack e).prev ch

theorem chain_top {S : List (Fin 3 × α)} {stack : ℕ → RayElem α} {e : ℕ} {ch : List (α × KdT α)}
    (h : Chain s P Q pos dir S stack e ch) : (stack e).t = toFX (topT ch) ∧ (stack e).pos = posFX pos dir (topT ch) ∧
    1 ≤ e ∧ e ≤ 1 + 2 * ch.length := by
  induction ch generalizing e with
  | nil =>
    obtain ⟨rfl, _, h2, h3⟩ := h
    exact ⟨h2, h3, le_refl _, by simp⟩
  | cons c ch ih =>
    obtain ⟨_, h2, h3, h4, h5, _, _, _, h6⟩ := h
    have := (ih h6).2.2
    refine ⟨h2, h3, by omega, ?_⟩
    simp only [List.length_cons]; omega

theorem chain_frame {S : List (Fin 3 × α)} {stack stack' : ℕ → RayElem α} {e : ℕ} {ch : List (α × KdT α)}
    (h : Chain s P Q pos dir S stack e ch) (he : ∀ k ≤ e, stack' k = stack k) : Chain s P Q pos dir S stack' e ch := by
  induction ch generalizing e with
  | nil =>
    obtain ⟨rfl, h1⟩ := h
    refine ⟨rfl, ?_⟩
    rw [he 1 (le_refl _)]; exact h1
  | cons c ch ih =>
    obtain ⟨h1, h2, h3, h4, h5, h6, h7, h8, h9⟩ := h
    have := he e (le_refl _)
    unfold Chain
    rw [this]
    exact ⟨h1, h2, h3, h4, h5, h6, h7, h8, ih h9 (fun k hk => he k (by omega))⟩

/-- All that is still to be visited. -/
def travAll (pos dir : V3 α) (t : KdT α) (te : α) : List (α × KdT α) → List (ℕ × α × Option α)
  | [] => trav pos dir t te none
  | c :: ch => trav pos dir t te (some c.1) ++ travAll pos dir c.2 c.1 ch

/-- All that is visited after the present tree. -/
def travRest (pos dir : V3 α) : List (α × KdT α) → List (ℕ × α × Option α)
  | [] => []
  | c :: ch => travAll pos dir c.2 c.1 ch

theorem travAll_eq (t : KdT α) (te : α) (ch : List (α × KdT α)) :
    travAll pos dir t te ch = trav pos dir t te (topT ch) ++ travRest pos dir ch := by
  cases ch <;> simp [travAll, travRest, topT]

/-- The number of nodes of a tree. -/
def cost (t : KdT α) : ℕ := t.leaves + t.inner

theorem cost_node (ax : Fin 3) (p : α) (l r : KdT α) : cost (.node ax p l r) = 1 + cost l + cost r := by
  simp only [cost, KdT.leaves, KdT.inner]; omega

theorem equalAbsX_false {S : List (Fin 3 × α)} {ch : List (α × KdT α)} (hg : Generic pos dir S)
    (hch : ∀ t, topT ch = some t → ∃ a ∈ S, t = crossing pos dir a.1 a.2) {ax : Fin 3} {p : α} (hap : (ax, p) ∈ S)
    (he : (posFX pos dir (topT ch) ax).leFin p = false) : equalAbsX (posFX pos dir (topT ch) ax) p = false := by
  cases ht : topT ch with
  | none =>
    simp only [posFX, FX.infOfSign]
    split_ifs <;> rfl
  | some t =>
    obtain ⟨a, ha, hta⟩ := hch t ht
    rw [ht] at he
    simp only [posFX, FX.leFin, decide_eq_false_iff_not, not_le] at he
    simp only [posFX, equalAbsX, equalAbs, absF_eq, decide_eq_false_iff_not, not_lt]
    have := hg a ha (ax, p) hap
    rw [← hta] at this
    simp only [not_and, not_lt] at this
    have h2 := this he
    rw [abs_of_pos (by linarith)]; linarith

theorem leFin_top (hd : ∀ ax, dir.get ax ≠ 0) (tx : Option α) (ax : Fin 3) (p : α) :
    (posFX pos dir tx ax).leFin p = true ↔ ExitLe pos dir tx ax p := by
  cases tx with
  | none =>
    have := hd ax
    simp only [posFX, FX.infOfSign, ExitLe]
    split_ifs with h1 h2
    · simp only [FX.leFin, Bool.false_eq_true, false_iff]; linarith
    · simp only [FX.leFin, true_iff]; exact h2
    · exact absurd (le_antisymm (by linarith) (by linarith)) this
  | some t => simp [posFX, FX.leFin, ExitLe]

theorem finLt_top (hd : ∀ ax, dir.get ax ≠ 0) (tx : Option α) (ax : Fin 3) (p : α) :
    FX.finLt p (posFX pos dir tx ax) = true ↔ ¬ ExitLe pos dir tx ax p := by
  cases tx with
  | none =>
    have := hd ax
    simp only [posFX, FX.infOfSign, ExitLe]
    split_ifs with h1 h2
    · simp only [FX.finLt, true_iff]; linarith
    · simp only [FX.finLt, Bool.false_eq_true, false_iff, not_not]; exact h2
    · exact absurd (le_antisymm (by linarith) (by linarith)) this
  | some t => simp [posFX, FX.finLt, ExitLe]

/-- The state of the loop: the tree `t`, entered at `te`, and the trees `ch` on the stack. -/
structure Sim (s : KdTree T α) (P Q : ℕ → Prop) (pos dir : V3 α) (S : List (Fin 3 × α)) (st : RayState α) (t : KdT α) (te : α)
    (ch : List (α × KdT α)) : Prop where
  entry_t : (st.stack st.entryPoint).t = .fin te
  entry_pos : (st.stack st.entryPoint).pos = posFX pos dir (some te)
  chain : Chain s P Q pos dir S st.stack st.exitPoint ch
  splits : t.splits ⊆ S
  room : ch.length + t.height ≤ 30

theorem chain_crossing {S : List (Fin 3 × α)} {stack : ℕ → RayElem α} {e : ℕ} {ch : List (α × KdT α)}
    (h : Chain s P Q pos dir S stack e ch) : ∀ t, topT ch = some t → ∃ a ∈ S, t = crossing pos dir a.1 a.2 := by
  cases ch with
  | nil => intro t e; cases e
  | cons c ch =>
    intro t e
    cases e
    exact h.2.2.2.2.2.1

theorem push_sim (hd : ∀ ax, dir.get ax ≠ 0) {S : List (Fin 3 × α)} {st : RayState α} {ax : Fin 3} {p : α} {near far : ℕ}
    {tn tf : KdT α} {te : α} {ch : List (α × KdT α)} (t1 : (st.stack st.entryPoint).t = .fin te)
    (t2 : (st.stack st.entryPoint).pos = posFX pos dir (some te)) (hc : Chain s P Q pos dir S st.stack st.exitPoint ch)
    (hap : (ax, p) ∈ S) (hfar : Rep s P Q far tf) (hn : tn.splits ⊆ S) (hf : tf.splits ⊆ S)
    (rn : ch.length + 1 + tn.height ≤ 30) (rf : ch.length + tf.height ≤ 30) :
    ∃ st', rayPush pos dir st ax p near far = some st' ∧ st'.current = some near ∧
      Sim s P Q pos dir S st' tn te ((crossing pos dir ax p, tf) :: ch) := by
  obtain ⟨k1, k2, k3, k4⟩ := chain_top hc
  have hl : ch.length ≤ 29 := by have := height_pos tn; omega
  unfold rayPush
  dsimp only
  generalize he : (if st.exitPoint + 1 = st.entryPoint then st.exitPoint + 2 else st.exitPoint + 1) = e
  have e1 : st.exitPoint < e ∧ e ≤ st.exitPoint + 2 ∧ e ≠ st.entryPoint := by
    rw [← he]; split_ifs <;> omega
  have e2 : e < cMaxStackItems := by unfold cMaxStackItems; omega
  rw [if_pos e2]
  have hdiv : FX.div (p - pos.get ax) (dir.get ax) = .fin (crossing pos dir ax p) := by
    unfold FX.div crossing; rw [if_neg (hd ax)]
  refine ⟨_, rfl, rfl, ⟨?_, ?_, ?_, hn, by simp only [List.length_cons]; omega⟩⟩
  · dsimp only; rw [if_neg (Ne.symm e1.2.2)]; exact t1
  · dsimp only; rw [if_neg (Ne.symm e1.2.2)]; exact t2
  · unfold Chain
    dsimp only
    rw [if_pos rfl]
    dsimp only
    refine ⟨⟨far, rfl, hfar⟩, hdiv, ?_, e1.1, e1.2.1, ⟨(ax, p), hap, rfl⟩, hf, rf, ?_⟩
    · funext a
      rw [hdiv]
      split_ifs with ha
      · subst ha
        simp only [posFX]; rw [rayAt_crossing p (hd a)]
      · rfl
    · refine chain_frame hc fun k hk => ?_
      rw [if_neg (by omega)]

theorem rayStep_sim (hd : ∀ ax, dir.get ax ≠ 0) {S : List (Fin 3 × α)} (hg : Generic pos dir S) {st : RayState α} {ax : Fin 3} {p : α}
    {l r : KdT α} {te : α} {ch : List (α × KdT α)} {c : ℕ} (h : Sim s P Q pos dir S st (.node ax p l r) te ch)
    (hl : Rep s P Q c l) (hr : Rep s P Q (c + 1) r) :
    ∃ st' i t' ch', rayStep pos dir st ax p c = some st' ∧ st'.current = some i ∧ Rep s P Q i t' ∧ Sim s P Q pos dir S st' t' te ch' ∧
      travAll pos dir (.node ax p l r) te ch = travAll pos dir t' te ch' ∧
      cost t' + (ch'.map fun c => cost c.2).sum < cost (KdT.node ax p l r) + (ch.map fun c => cost c.2).sum := by
  obtain ⟨t1, t2, hc, hs, hroom⟩ := h
  obtain ⟨k1, k2, k3, k4⟩ := chain_top hc
  have hap : (ax, p) ∈ S := hs (by simp [KdT.splits])
  have hsl : l.splits ⊆ S := fun x hx => hs (by simp [KdT.splits, hx])
  have hsr : r.splits ⊆ S := fun x hx => hs (by simp [KdT.splits, hx])
  simp only [KdT.height] at hroom
  have hL : (posFX pos dir (some te) ax).leFin p = true ↔ rayAt pos dir te ax ≤ p := by simp [posFX, FX.leFin]
  unfold rayStep
  rw [t2, k2, travAll_eq, trav]
  simp only [cost_node]
  by_cases h1 : rayAt pos dir te ax ≤ p
  · rw [if_pos (hL.2 h1), if_pos h1]
    by_cases h2 : ExitLe pos dir (topT ch) ax p
    · rw [if_pos ((leFin_top hd _ _ _).2 h2), if_pos h2]
      exact ⟨_, c, l, ch, rfl, rfl, hl, ⟨t1, t2, hc, hsl, by omega⟩, (travAll_eq _ _ _).symm, by omega⟩
    · have hz := equalAbsX_false hg (chain_crossing hc) hap 
        (by rw [← Bool.not_eq_true, leFin_top hd]; exact h2)
      rw [if_neg (by rw [leFin_top hd]; exact h2 : ¬ (posFX pos dir (topT ch) ax).leFin p = true), if_neg h2, hz]
      simp only [Bool.false_eq_true, if_false]
      obtain ⟨st', e1, e2, e3⟩ := push_sim (near := c) (far := c + 1) (tn := l) (tf := r) hd t1 t2 hc hap hr hsl hsr (by omega) (by omega)
      refine ⟨st', c, l, _, e1, e2, hl, e3, ?_, ?_⟩
      · rw [travAll, travAll_eq, List.append_assoc]
      · simp only [List.map_cons, List.sum_cons]; omega
  · rw [if_neg (by rw [hL]; exact h1 : ¬ (posFX pos dir (some te) ax).leFin p = true), if_neg h1]
    by_cases h2 : ExitLe pos dir (topT ch) ax p
    · rw [if_neg (by rw [finLt_top hd, not_not]; exact h2 : ¬ FX.finLt p (posFX pos dir (topT ch) ax) = true), if_pos h2]
      obtain ⟨st', e1, e2, e3⟩ := push_sim (near := c + 1) (far := c) (tn := r) (tf := l) hd t1 t2 hc hap hl hsr hsl (by omega) (by omega)
      refine ⟨st', c + 1, r, _, e1, e2, hr, e3, ?_, ?_⟩
      · rw [travAll, travAll_eq, List.append_assoc]
      · simp only [List.map_cons, List.sum_cons]; omega
    · rw [if_pos ((finLt_top hd _ _ _).2 h2), if_neg h2]
      exact ⟨_, c + 1, r, ch, rfl, rfl, hr, ⟨t1, t2, hc, hsr, by omega⟩, (travAll_eq _ _ _).symm, by omega⟩

theorem rayLoop_spec {σ : Type*} (hd : ∀ ax, dir.get ax ≠ 0) {S : List (Fin 3 × α)} (hg : Generic pos dir S)
    (cb : σ → RayCall α → σ × Bool) (f : ℕ) : ∀ (st : RayState α) (i : ℕ) (t : KdT α) (te : α) (ch : List (α × KdT α)) (x : σ),
    st.current = some i → Rep s P Q i t → Sim s P Q pos dir S st t te ch →
    cost t + (ch.map fun c => cost c.2).sum + 1 ≤ f →
    s.rayLoop pos dir cb f st x = some (Spec.runCalls cb x ((travAll pos dir t te ch).map toCall)) := by
  induction f with
  | zero => intro st i t te ch x _ _ _ hf; omega
  | succ f ih =>
    intro st i t te ch x hi hrep hsim hf
    rw [rayLoop, hi]
    dsimp only
    cases hrep with
    | leaf _ b h1 h2 h3 =>
      rw [h2]
      dsimp only
      obtain ⟨k1, k2, k3, k4⟩ := chain_top hsim.chain
      have hcall : rayCall st i = toCall (i, te, topT ch) := by
        unfold rayCall toCall
        rw [hsim.entry_t, k1]
      rw [hcall, travAll_eq, trav]
      simp only [List.singleton_append, List.map_cons, Spec.runCalls]
      split_ifs with hstop
      · rfl
      · have hc := hsim.chain
        cases ch with
        | nil =>
          obtain ⟨e1, e2, _, _⟩ := hc
          have : (rayPop st).current = none := by simp only [rayPop, e1, e2]
          cases f with
          | zero => simp [cost, KdT.leaves] at hf
          | succ f => rw [rayLoop, this]; rfl
        | cons c ch =>
          obtain ⟨⟨j, e1, e2⟩, e3, e4, _, _, _, e5, e6, e7⟩ := hc
          refine ih (rayPop st) j c.2 c.1 ch _ e1 e2 ⟨e3, e4, e7, e5, e6⟩ ?_
          simp only [cost, KdT.leaves, KdT.inner, List.map_cons, List.sum_cons] at hf ⊢
          omega
    | node _ ax p c l r h1 h2 hl hr =>
      rw [h2]
      dsimp only
      obtain ⟨st', j, t', ch', e1, e2, e3, e4, e5, e6⟩ := rayStep_sim hd hg hsim hl hr
      rw [e1, Option.bind_some, ih st' j t' te ch' x e2 e3 e4 (by omega), e5]

theorem rayStart_sim (hd : ∀ ax, dir.get ax ≠ 0) {box : T → AABB α} {t : KdT α} (h : Built box s t) (junk : ℕ → RayElem α) :
    (s.rayStart pos dir junk).current = some 1 ∧
    Sim s (fun j => 1 ≤ j ∧ j < s.size) (fun k => 1 ≤ k ∧ k < s.numBuckets) pos dir t.splits (s.rayStart pos dir junk) t 0 [] := by
  refine ⟨by simp [rayStart, root, h.one_lt], ⟨rfl, ?_, ⟨rfl, rfl, rfl, ?_⟩, fun x hx => hx, by simpa using h.height⟩⟩
  · rfl
  · funext a
    simp only [rayStart, posFX, FX.infOfSign]
    have := hd a
    simp only [one_ne_zero, if_false, if_true]
    split_ifs with h1 h2
    · rfl
    · rfl
    · rfl

/-- The ray query visits the leaves on the ray. -/
theorem rayQuery_spec {σ : Type*} (hd : ∀ ax, dir.get ax ≠ 0) {box : T → AABB α} {t : KdT α} (h : Built box s t)
    (hg : Generic pos dir t.splits) (hm : s.rayMeetsRoot pos dir = true) (junk : ℕ → RayElem α) (cb : σ → RayCall α → σ × Bool) (f : ℕ)
    (hf : s.size ≤ f) (x : σ) :
    s.rayQuery pos dir junk cb f x = some (Spec.runCalls cb x ((trav pos dir t 0 none).map toCall)) := by
  obtain ⟨h1, h2⟩ := rayStart_sim hd h junk (pos := pos)
  unfold rayQuery
  rw [if_pos hm]
  have hc := h.count
  exact rayLoop_spec hd hg cb f _ 1 t 0 [] x h1 h.rep h2 (by simp only [cost, List.map_nil, List.sum_nil]; omega)

end MGL.KdTree
