import Verif.Model.Memory
import Mathlib.Tactic.Common
import Mathlib.Tactic.ByContra
import Mathlib.Data.List.Basic

/-!
The analysis behind the memory properties: which local names certainly denote objects created during
the call.  A program that only writes in place through such names leaves the caller's objects alone,
and computes something that depends on the contents of its arguments only.
-/

namespace Verif.Lemmas

open Verif.Model Verif.Model.Memory

variable {V : Type}

/-- The names that certainly denote new objects after the program, given those before it; `none` when
the program writes in place through any other name. -/
def owned : Stmt → List Var → Option (List Var)
  | .skip, O => some O
  | .new x _ _, O => some (x :: O)
  | .view x y, O => some (if y ∈ O then x :: O else O.filter (· ≠ x))
  | .put x _ _, O => if x ∈ O then some O else none
  | .raiseIf _ _, O => some O
  | .ifte _ _ t e, O =>
    match owned t O, owned e O with
    | some O1, some O2 => some (O1.filter (· ∈ O2))
    | _, _ => none
  | .rep i _ _ body, O =>
    match owned body (i :: O) with
    | some O' => if ∀ x ∈ O, x ∈ O' then some O else none
    | none => none
  | .seq p q, O =>
    match owned p O with
    | some O1 => owned q O1
    | none => none

/-- The names `O` denote no protected cell, and protected cells exist already. -/
def Guard (P : Nat → Prop) (O : List Var) (s : St V) : Prop :=
  (∀ x ∈ O, ∀ r, s.env x = some r → ¬ P r) ∧ ∀ r, P r → r < s.heap.length

theorem Guard.mono {P : Nat → Prop} {O O' : List Var} {s : St V} (h : Guard P O s)
    (hs : ∀ x ∈ O', x ∈ O) : Guard P O' s :=
  ⟨fun x hx => h.1 x (hs x hx), h.2⟩

theorem guard_alloc {P : Nat → Prop} {O : List Var} {s : St V} (h : Guard P O s) (x : Var) (v : V) :
    Guard P (x :: O) (alloc s x v) := by
  constructor
  · intro y hy r hr hP
    have hlt := h.2 r hP
    by_cases hyx : y = x
    · subst hyx
      simp [alloc, bindVar] at hr
      omega
    · simp only [alloc, bindVar, if_neg hyx] at hr
      have hyO : y ∈ O := by
        rcases List.mem_cons.mp hy with h1 | h1
        · exact absurd h1 hyx
        · exact h1
      exact h.1 y hyO r hr hP
  · intro r hP
    have := h.2 r hP
    simp only [alloc, List.length_append, List.length_cons, List.length_nil]
    omega

theorem frame_alloc {P : Nat → Prop} {O : List Var} {s : St V} (h : Guard P O s) (x : Var) (v : V) :
    ∀ r, P r → (alloc s x v).heap[r]? = s.heap[r]? := by
  intro r hP
  simp only [alloc]
  rw [List.getElem?_append_left (h.2 r hP)]

/-- What a run of a checked program guarantees. -/
def Keeps (P : Nat → Prop) (O : List Var) (s : St V) (out : St V × Bool) : Prop :=
  (∀ r, P r → out.1.heap[r]? = s.heap[r]?) ∧ (∀ r, P r → r < out.1.heap.length) ∧
    s.heap.length ≤ out.1.heap.length ∧ (out.2 = true → Guard P O out.1)

theorem loop_keeps {P : Nat → Prop} {O : List Var} (f : Nat → St V → St V × Bool)
    (hf : ∀ k s, Guard P O s → Keeps P O s (f k s)) :
    ∀ n k s, Guard P O s → Keeps P O s (loop f k n s) := by
  intro n
  induction n with
  | zero => intro k s h; exact ⟨fun _ _ => rfl, h.2, Nat.le_refl _, fun _ => h⟩
  | succ n ih =>
    intro k s h
    have h1 := hf k s h
    unfold loop
    rcases hfk : f k s with ⟨s', b⟩
    rw [hfk] at h1
    cases b with
    | false => exact ⟨h1.1, h1.2.1, h1.2.2.1, fun hb => absurd hb (by simp)⟩
    | true =>
      have h2 := ih (k + 1) s' (h1.2.2.2 rfl)
      exact ⟨fun r hr => (h2.1 r hr).trans (h1.1 r hr), h2.2.1, Nat.le_trans h1.2.2.1 h2.2.2.1, h2.2.2.2⟩

/-- A checked program leaves every protected cell as it was, wherever it stops. -/
theorem exec_keeps (I : Interp V) (P : Nat → Prop) :
    ∀ (p : Stmt) (O O' : List Var) (s : St V), owned p O = some O' → Guard P O s →
      Keeps P O' s (exec I p s) := by
  intro p
  induction p with
  | skip =>
    intro O O' s ho h
    simp only [owned, Option.some.injEq] at ho
    subst ho
    exact ⟨fun _ _ => rfl, h.2, Nat.le_refl _, fun _ => h⟩
  | new x op ys =>
    intro O O' s ho h
    simp only [owned, Option.some.injEq] at ho
    subst ho
    unfold exec
    cases reads s ys with
    | none => exact ⟨fun _ _ => rfl, h.2, Nat.le_refl _, fun hb => absurd hb (by simp)⟩
    | some vs =>
      refine ⟨frame_alloc h x _, (guard_alloc h x _).2, ?_, fun _ => guard_alloc h x _⟩
      simp [alloc]
  | view x y =>
    intro O O' s ho h
    simp only [owned, Option.some.injEq] at ho
    subst ho
    unfold exec
    cases hy : s.env y with
    | none => exact ⟨fun _ _ => rfl, h.2, Nat.le_refl _, fun hb => absurd hb (by simp)⟩
    | some r =>
      refine ⟨fun _ _ => rfl, h.2, Nat.le_refl _, fun _ => ⟨?_, h.2⟩⟩
      intro z hz q hq hP
      by_cases hzx : z = x
      · subst hzx
        simp only [bindVar, if_true, Option.some.injEq] at hq
        subst hq
        by_cases hyO : y ∈ O
        · exact h.1 y hyO r hy hP
        · rw [if_neg hyO] at hz
          simp at hz
      · simp only [bindVar, if_neg hzx] at hq
        have hzO : z ∈ O := by
          by_cases hyO : y ∈ O
          · rw [if_pos hyO] at hz
            rcases List.mem_cons.mp hz with h1 | h1
            · exact absurd h1 hzx
            · exact h1
          · rw [if_neg hyO] at hz
            exact (List.mem_filter.mp hz).1
        exact h.1 z hzO q hq hP
  | put x op ys =>
    intro O O' s ho h
    simp only [owned] at ho
    split at ho
    case isTrue hx =>
      simp only [Option.some.injEq] at ho
      subst ho
      unfold exec
      split
      · rename_i r vs hr _
        refine ⟨?_, ?_, ?_, fun _ => ⟨h.1, ?_⟩⟩
        · intro q hq
          have hne : r ≠ q := by
            rintro rfl
            exact h.1 x hx r hr hq
          simp only [List.getElem?_set, if_neg hne]
        · intro q hq
          simp only [List.length_set]
          exact h.2 q hq
        · simp
        · intro q hq
          simp only [List.length_set]
          exact h.2 q hq
      · exact ⟨fun _ _ => rfl, h.2, Nat.le_refl _, fun hb => absurd hb (by simp)⟩
    case isFalse => exact absurd ho (by simp)
  | raiseIf c ys =>
    intro O O' s ho h
    simp only [owned, Option.some.injEq] at ho
    subst ho
    unfold exec
    cases reads s ys with
    | none => exact ⟨fun _ _ => rfl, h.2, Nat.le_refl _, fun hb => absurd hb (by simp)⟩
    | some vs => exact ⟨fun _ _ => rfl, h.2, Nat.le_refl _, fun _ => h⟩
  | ifte c ys t e iht ihe =>
    intro O O' s ho h
    simp only [owned] at ho
    split at ho
    · rename_i O1 O2 h1 h2
      simp only [Option.some.injEq] at ho
      subst ho
      unfold exec
      cases reads s ys with
      | none => exact ⟨fun _ _ => rfl, h.2, Nat.le_refl _, fun hb => absurd hb (by simp)⟩
      | some vs =>
        dsimp only
        split
        · have := iht O O1 s h1 h
          exact ⟨this.1, this.2.1, this.2.2.1,
            fun hb => (this.2.2.2 hb).mono fun x hx => (List.mem_filter.mp hx).1⟩
        · have := ihe O O2 s h2 h
          refine ⟨this.1, this.2.1, this.2.2.1,
            fun hb => (this.2.2.2 hb).mono fun x hx => ?_⟩
          simpa using (List.mem_filter.mp hx).2
    · exact absurd ho (by simp)
  | rep i n ys body ih =>
    intro O O' s ho h
    simp only [owned] at ho
    split at ho
    · rename_i O1 h1
      split at ho
      case isTrue hsub =>
        simp only [Option.some.injEq] at ho
        subst ho
        unfold exec
        cases reads s ys with
        | none => exact ⟨fun _ _ => rfl, h.2, Nat.le_refl _, fun hb => absurd hb (by simp)⟩
        | some vs =>
          dsimp only
          apply loop_keeps _ _ _ _ _ h
          intro k s' hg
          have hk := ih (i :: O) O1 (alloc s' i (I.num k)) h1 (guard_alloc hg i _)
          refine ⟨fun r hr => (hk.1 r hr).trans (frame_alloc hg i _ r hr), hk.2.1, ?_,
            fun hb => (hk.2.2.2 hb).mono hsub⟩
          refine Nat.le_trans ?_ hk.2.2.1
          simp [alloc]
      case isFalse => exact absurd ho (by simp)
    · exact absurd ho (by simp)
  | seq p q ihp ihq =>
    intro O O' s ho h
    simp only [owned] at ho
    split at ho
    · rename_i O1 h1
      have hp := ihp O O1 s h1 h
      unfold exec
      rcases hx : exec I p s with ⟨s', b⟩
      rw [hx] at hp
      cases b with
      | false => exact ⟨hp.1, hp.2.1, hp.2.2.1, fun hb => absurd hb (by simp)⟩
      | true =>
        have hq := ihq O1 O' s' ho (hp.2.2.2 rfl)
        exact ⟨fun r hr => (hq.1 r hr).trans (hp.1 r hr), hq.2.1, Nat.le_trans hp.2.2.1 hq.2.2.1,
          hq.2.2.2⟩
    · exact absurd ho (by simp)

/-! ### Two runs side by side -/

/-- Two locations that play the same role in two runs that started with `b₁` and `b₂` cells. -/
def Same (b₁ b₂ : Nat) (h₁ h₂ : List V) (r₁ r₂ : Nat) : Prop :=
  (∃ i, r₁ = b₁ + i ∧ r₂ = b₂ + i) ∨ (r₁ < b₁ ∧ r₂ < b₂ ∧ h₁[r₁]? = h₂[r₂]?)

/-- Two states that differ only in the objects the caller had besides the arguments. -/
structure Twin (b₁ b₂ : Nat) (O : List Var) (s₁ s₂ : St V) : Prop where
  le₁ : b₁ ≤ s₁.heap.length
  le₂ : b₂ ≤ s₂.heap.length
  len : s₁.heap.length - b₁ = s₂.heap.length - b₂
  tail : ∀ i, s₁.heap[b₁ + i]? = s₂.heap[b₂ + i]?
  env : ∀ x, (s₁.env x = none ∧ s₂.env x = none) ∨
    ∃ r₁ r₂, s₁.env x = some r₁ ∧ s₂.env x = some r₂ ∧ Same b₁ b₂ s₁.heap s₂.heap r₁ r₂
  own : ∀ x ∈ O, ∀ r, s₁.env x = some r → b₁ ≤ r

theorem Twin.mono {b₁ b₂ : Nat} {O O' : List Var} {s₁ s₂ : St V} (h : Twin b₁ b₂ O s₁ s₂)
    (hs : ∀ x ∈ O', x ∈ O) : Twin b₁ b₂ O' s₁ s₂ :=
  ⟨h.le₁, h.le₂, h.len, h.tail, h.env, fun x hx => h.own x (hs x hx)⟩

theorem same_content {b₁ b₂ : Nat} {O : List Var} {s₁ s₂ : St V} (h : Twin b₁ b₂ O s₁ s₂)
    {r₁ r₂ : Nat} (hr : Same b₁ b₂ s₁.heap s₂.heap r₁ r₂) : s₁.heap[r₁]? = s₂.heap[r₂]? := by
  rcases hr with ⟨i, rfl, rfl⟩ | ⟨_, _, h3⟩
  · exact h.tail i
  · exact h3

theorem twin_reads {b₁ b₂ : Nat} {O : List Var} {s₁ s₂ : St V} (h : Twin b₁ b₂ O s₁ s₂) :
    ∀ ys, reads s₁ ys = reads s₂ ys
  | [] => rfl
  | y :: ys => by
    have ih := twin_reads h ys
    unfold reads
    rcases h.env y with ⟨h1, h2⟩ | ⟨r₁, r₂, h1, h2, h3⟩
    · rw [h1, h2]
    · rw [h1, h2]
      dsimp only
      rw [same_content h h3, ih]

theorem same_append {b₁ b₂ : Nat} {h₁ h₂ : List V} {r₁ r₂ : Nat} (v : V)
    (l₁ : b₁ ≤ h₁.length) (l₂ : b₂ ≤ h₂.length)
    (h : Same b₁ b₂ h₁ h₂ r₁ r₂) : Same b₁ b₂ (h₁ ++ [v]) (h₂ ++ [v]) r₁ r₂ := by
  rcases h with h | ⟨h1, h2, h3⟩
  · exact Or.inl h
  · refine Or.inr ⟨h1, h2, ?_⟩
    rw [List.getElem?_append_left (by omega), List.getElem?_append_left (by omega), h3]

theorem twin_alloc {b₁ b₂ : Nat} {O : List Var} {s₁ s₂ : St V} (h : Twin b₁ b₂ O s₁ s₂)
    (x : Var) (v : V) : Twin b₁ b₂ (x :: O) (alloc s₁ x v) (alloc s₂ x v) := by
  have e1 := h.le₁
  have e2 := h.le₂
  have e3 := h.len
  refine ⟨?_, ?_, ?_, ?_, ?_, ?_⟩
  · simp only [alloc, List.length_append]; omega
  · simp only [alloc, List.length_append]; omega
  · simp only [alloc, List.length_append, List.length_cons, List.length_nil]; omega
  · intro i
    simp only [alloc]
    by_cases hi : b₁ + i < s₁.heap.length
    · rw [List.getElem?_append_left hi, List.getElem?_append_left (by omega)]
      exact h.tail i
    · rw [List.getElem?_append_right (by omega), List.getElem?_append_right (by omega)]
      have : b₁ + i - s₁.heap.length = b₂ + i - s₂.heap.length := by omega
      rw [this]
  · intro y
    by_cases hy : y = x
    · subst hy
      refine Or.inr ⟨s₁.heap.length, s₂.heap.length, by simp [alloc, bindVar], by simp [alloc, bindVar],
        Or.inl ⟨s₁.heap.length - b₁, by omega, by omega⟩⟩
    · rcases h.env y with ⟨h1, h2⟩ | ⟨r₁, r₂, h1, h2, h3⟩
      · left
        simp only [alloc, bindVar, if_neg hy]
        exact ⟨h1, h2⟩
      · right
        refine ⟨r₁, r₂, ?_, ?_, same_append v e1 e2 h3⟩
        · simp only [alloc, bindVar, if_neg hy]; exact h1
        · simp only [alloc, bindVar, if_neg hy]; exact h2
  · intro y hy r hr
    by_cases hyx : y = x
    · subst hyx
      simp only [alloc, bindVar, if_true, Option.some.injEq] at hr
      omega
    · simp only [alloc, bindVar, if_neg hyx] at hr
      rcases List.mem_cons.mp hy with h1 | h1
      · exact absurd h1 hyx
      · exact h.own y h1 r hr

/-- The outcome of two such runs: both raise or neither does, and the final states correspond. -/
def TwinOut (b₁ b₂ : Nat) (O : List Var) (o₁ o₂ : St V × Bool) : Prop :=
  o₁.2 = o₂.2 ∧ (o₁.2 = true → Twin b₁ b₂ O o₁.1 o₂.1)

theorem loop_twin {b₁ b₂ : Nat} {O : List Var} (f : Nat → St V → St V × Bool)
    (hf : ∀ k s₁ s₂, Twin b₁ b₂ O s₁ s₂ → TwinOut b₁ b₂ O (f k s₁) (f k s₂)) :
    ∀ n k s₁ s₂, Twin b₁ b₂ O s₁ s₂ → TwinOut b₁ b₂ O (loop f k n s₁) (loop f k n s₂) := by
  intro n
  induction n with
  | zero => intro k s₁ s₂ h; exact ⟨rfl, fun _ => h⟩
  | succ n ih =>
    intro k s₁ s₂ h
    have h1 := hf k s₁ s₂ h
    unfold loop
    rcases e1 : f k s₁ with ⟨t₁, c₁⟩
    rcases e2 : f k s₂ with ⟨t₂, c₂⟩
    rw [e1, e2] at h1
    obtain ⟨hb, ht⟩ := h1
    dsimp only at hb
    subst hb
    cases c₁ with
    | false => exact ⟨rfl, fun hb => absurd hb (by simp)⟩
    | true => exact ih (k + 1) t₁ t₂ (ht rfl)

theorem raised_twin {b₁ b₂ : Nat} {O : List Var} (s₁ s₂ : St V) :
    TwinOut b₁ b₂ O (s₁, false) (s₂, false) :=
  ⟨rfl, fun hb => absurd hb (by simp)⟩

/-- A checked program does the same in both states. -/
theorem exec_twin (I : Interp V) (b₁ b₂ : Nat) :
    ∀ (p : Stmt) (O O' : List Var) (s₁ s₂ : St V), owned p O = some O' → Twin b₁ b₂ O s₁ s₂ →
      TwinOut b₁ b₂ O' (exec I p s₁) (exec I p s₂) := by
  intro p
  induction p with
  | skip =>
    intro O O' s₁ s₂ ho h
    simp only [owned, Option.some.injEq] at ho
    subst ho
    exact ⟨rfl, fun _ => h⟩
  | new x op ys =>
    intro O O' s₁ s₂ ho h
    simp only [owned, Option.some.injEq] at ho
    subst ho
    unfold exec
    rw [twin_reads h ys]
    cases reads s₂ ys with
    | none => exact raised_twin _ _
    | some vs => exact ⟨rfl, fun _ => twin_alloc h x _⟩
  | view x y =>
    intro O O' s₁ s₂ ho h
    simp only [owned, Option.some.injEq] at ho
    subst ho
    unfold exec
    rcases h.env y with ⟨h1, h2⟩ | ⟨r₁, r₂, h1, h2, h3⟩
    · rw [h1, h2]; exact raised_twin _ _
    · rw [h1, h2]
      refine ⟨rfl, fun _ => ⟨h.le₁, h.le₂, h.len, h.tail, ?_, ?_⟩⟩
      · intro z
        by_cases hz : z = x
        · subst hz
          exact Or.inr ⟨r₁, r₂, by simp [bindVar], by simp [bindVar], h3⟩
        · simp only [bindVar, if_neg hz]
          exact h.env z
      · intro z hz q hq
        by_cases hzx : z = x
        · subst hzx
          simp only [bindVar, if_true, Option.some.injEq] at hq
          subst hq
          by_cases hyO : y ∈ O
          · exact h.own y hyO r₁ h1
          · rw [if_neg hyO] at hz
            simp at hz
        · simp only [bindVar, if_neg hzx] at hq
          have hzO : z ∈ O := by
            by_cases hyO : y ∈ O
            · rw [if_pos hyO] at hz
              rcases List.mem_cons.mp hz with h1 | h1
              · exact absurd h1 hzx
              · exact h1
            · rw [if_neg hyO] at hz
              exact (List.mem_filter.mp hz).1
          exact h.own z hzO q hq
  | put x op ys =>
    intro O O' s₁ s₂ ho h
    simp only [owned] at ho
    split at ho
    case isTrue hx =>
      simp only [Option.some.injEq] at ho
      subst ho
      unfold exec
      rw [twin_reads h (x :: ys)]
      rcases h.env x with ⟨h1, h2⟩ | ⟨r₁, r₂, h1, h2, h3⟩
      · rw [h1, h2]; exact raised_twin _ _
      · rw [h1, h2]
        cases reads s₂ (x :: ys) with
        | none => exact raised_twin _ _
        | some vs =>
          have hb := h.own x hx r₁ h1
          obtain ⟨i, rfl, rfl⟩ : ∃ i, r₁ = b₁ + i ∧ r₂ = b₂ + i := by
            rcases h3 with h3 | ⟨h4, _, _⟩
            · exact h3
            · omega
          have e1 := h.le₁
          have e2 := h.le₂
          have e3 := h.len
          refine ⟨rfl, fun _ => ⟨?_, ?_, ?_, ?_, ?_, ?_⟩⟩
          · simpa using e1
          · simpa using e2
          · simpa using e3
          · intro j
            simp only [List.getElem?_set]
            by_cases hij : i = j
            · subst hij
              simp only [if_true]
              by_cases hl : b₁ + i < s₁.heap.length
              · rw [if_pos hl, if_pos (by omega)]
              · rw [if_neg hl, if_neg (by omega)]
            · rw [if_neg (by omega), if_neg (by omega)]
              exact h.tail j
          · intro z
            rcases h.env z with hz | ⟨q₁, q₂, g1, g2, g3⟩
            · exact Or.inl hz
            · refine Or.inr ⟨q₁, q₂, g1, g2, ?_⟩
              rcases g3 with g3 | ⟨g4, g5, g6⟩
              · exact Or.inl g3
              · refine Or.inr ⟨g4, g5, ?_⟩
                simp only [List.getElem?_set]
                rw [if_neg (by omega), if_neg (by omega)]
                exact g6
          · intro z hz q hq
            exact h.own z hz q hq
    case isFalse => exact absurd ho (by simp)
  | raiseIf c ys =>
    intro O O' s₁ s₂ ho h
    simp only [owned, Option.some.injEq] at ho
    subst ho
    unfold exec
    rw [twin_reads h ys]
    cases reads s₂ ys with
    | none => exact raised_twin _ _
    | some vs => exact ⟨rfl, fun _ => h⟩
  | ifte c ys t e iht ihe =>
    intro O O' s₁ s₂ ho h
    simp only [owned] at ho
    split at ho
    · rename_i O1 O2 h1 h2
      simp only [Option.some.injEq] at ho
      subst ho
      unfold exec
      rw [twin_reads h ys]
      cases reads s₂ ys with
      | none => exact raised_twin _ _
      | some vs =>
        dsimp only
        split
        · have := iht O O1 s₁ s₂ h1 h
          exact ⟨this.1, fun hb => (this.2 hb).mono fun x hx => (List.mem_filter.mp hx).1⟩
        · have := ihe O O2 s₁ s₂ h2 h
          refine ⟨this.1, fun hb => (this.2 hb).mono fun x hx => ?_⟩
          simpa using (List.mem_filter.mp hx).2
    · exact absurd ho (by simp)
  | rep i n ys body ih =>
    intro O O' s₁ s₂ ho h
    simp only [owned] at ho
    split at ho
    · rename_i O1 h1
      split at ho
      case isTrue hsub =>
        simp only [Option.some.injEq] at ho
        subst ho
        unfold exec
        rw [twin_reads h ys]
        cases reads s₂ ys with
        | none => exact raised_twin _ _
        | some vs =>
          dsimp only
          apply loop_twin _ _ _ _ _ _ h
          intro k t₁ t₂ ht
          have hk := ih (i :: O) O1 (alloc t₁ i (I.num k)) (alloc t₂ i (I.num k)) h1
            (twin_alloc ht i _)
          exact ⟨hk.1, fun hb => (hk.2 hb).mono hsub⟩
      case isFalse => exact absurd ho (by simp)
    · exact absurd ho (by simp)
  | seq p q ihp ihq =>
    intro O O' s₁ s₂ ho h
    simp only [owned] at ho
    split at ho
    · rename_i O1 h1
      have hp := ihp O O1 s₁ s₂ h1 h
      unfold exec
      rcases e1 : exec I p s₁ with ⟨t₁, c₁⟩
      rcases e2 : exec I p s₂ with ⟨t₂, c₂⟩
      rw [e1, e2] at hp
      obtain ⟨hb, ht⟩ := hp
      dsimp only at hb
      subst hb
      cases c₁ with
      | false => exact raised_twin _ _
      | true => exact ihq O1 O' t₁ t₂ ho (ht rfl)
    · exact absurd ho (by simp)

end Verif.Lemmas
