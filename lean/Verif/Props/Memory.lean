import Verif.Lemmas.Memory

/-!
C169: no call changes an object of the caller, whatever calls a session makes and wherever they
raise (`eofunc_eofs(..., meta=True)` on a `DataArray` is the exception: it writes the eigenvalues into
the caller's `attrs`).  C170: what a call returns depends on the contents of its arguments only, not on
the calls made before.  C171: the result is made of new objects (`gradient`, whose longitudes and
latitudes are the caller's arrays, is the exception).
-/

namespace Verif.Props

open Verif.Model Verif.Model.Memory Verif.Lemmas

/-- The caller's own objects: the cells that existed before the call or session. -/
def Untouched {V : Type} (before after : List V) : Prop :=
  ∀ r < before.length, after[r]? = before[r]?

theorem untouched_trans {V : Type} {a b c : List V} (h1 : Untouched a b) (h2 : Untouched b c)
    (hl : a.length ≤ b.length) : Untouched a c :=
  fun r hr => (h2 r (by omega)).trans (h1 r hr)

/-- Every function but that one passes the analysis. -/
theorem api_owned (f : Api) (hf : f ≠ .eofunc_eofs true true) :
    ∃ O, owned f.fn.body [] = some O := by
  rw [← Option.isSome_iff_exists]
  cases f with
  | eofunc_eofs d m => cases d <;> cases m <;> first | exact absurd rfl hf | decide +kernel
  | eofunc_pcs d m => cases d <;> cases m <;> decide +kernel
  | eofunc m => cases m <;> decide +kernel
  | eofunc_ts m => cases m <;> decide +kernel
  | _ => decide +kernel

/-- The names of the results denote new objects, apart from `gradient`'s coordinates. -/
theorem api_rets (f : Api) (hf : f ≠ .eofunc_eofs true true) :
    ∃ O, owned f.fn.body [] = some O ∧ ∀ x ∈ f.fn.rets, x.2 ≠ .lonlat → x ∈ O := by
  have key : (match owned f.fn.body [] with
      | some O => f.fn.rets.all fun x => x.2 = .lonlat ∨ x ∈ O
      | none => false) = true := by
    cases f with
    | eofunc_eofs d m => cases d <;> cases m <;> first | exact absurd rfl hf | decide +kernel
    | eofunc_pcs d m => cases d <;> cases m <;> decide +kernel
    | eofunc m => cases m <;> decide +kernel
    | eofunc_ts m => cases m <;> decide +kernel
    | _ => decide +kernel
  cases ho : owned f.fn.body [] with
  | none => rw [ho] at key; exact absurd key (by simp)
  | some O =>
    rw [ho] at key
    refine ⟨O, rfl, fun x hx hl => ?_⟩
    have := List.all_eq_true.mp key x hx
    simp only [Bool.decide_or, Bool.or_eq_true, decide_eq_true_eq] at this
    exact this.resolve_left hl

theorem guard_start {V : Type} (h : List V) (e : Var → Option Nat) :
    Guard (· < h.length) [] ({ heap := h, env := e } : St V) :=
  ⟨fun x hx => absurd hx (by simp), fun _ hr => hr⟩

theorem call_heap {V : Type} (I : Interp V) (f : Fn) (h : List V) (args : List Nat) :
    (call I f h args).1 = (exec I f.body { heap := h, env := bindArgs f.params args }).1.heap := by
  unfold call
  rcases exec I f.body { heap := h, env := bindArgs f.params args } with ⟨s, b⟩
  cases b <;> rfl

theorem call_untouched {V : Type} (I : Interp V) (f : Api) (hf : f ≠ .eofunc_eofs true true)
    (h : List V) (args : List Nat) :
    Untouched h (call I f.fn h args).1 ∧ h.length ≤ (call I f.fn h args).1.length := by
  obtain ⟨O, ho⟩ := api_owned f hf
  have := exec_keeps I (· < h.length) f.fn.body [] O
    { heap := h, env := bindArgs f.fn.params args } ho (guard_start h _)
  rw [call_heap]
  exact ⟨this.1, this.2.2.1⟩

/-- Whatever the caller does — any functions of the library in any order, on any objects that exist,
results of earlier calls included, raising or not — every object that existed at the start still has
the content it had.  The one function left out is `eofunc_eofs` with a `DataArray` and `meta=True`. -/
theorem C169_untouched_partial {V : Type} (I : Interp V) (calls : List (Api × List Nat))
    (hc : ∀ c ∈ calls, c.1 ≠ .eofunc_eofs true true) (h : List V) :
    Untouched h (session I calls h) ∧ h.length ≤ (session I calls h).length := by
  induction calls generalizing h with
  | nil => exact ⟨fun _ _ => rfl, Nat.le_refl _⟩
  | cons c cs ih =>
    have h1 := call_untouched I c.1 (hc c (by simp)) h c.2
    have h2 := ih (fun d hd => hc d (by simp [hd])) (call I c.1.fn h c.2).1
    exact ⟨untouched_trans h1.1 h2.1 h1.2, Nat.le_trans h1.2 h2.2⟩

/-- An interpretation to run examples with: every operation adds up what it reads and adds one, tests
are as given, loops run twice. -/
def demo (t : String → Bool) : Interp Nat where
  op _ vs := vs.sum + 1
  test c _ := t c
  count _ _ := 2
  num k := k

/-- A session of three calls in which in-place writes do happen: `delta_pressure` on an array of
surface pressures, `fourier_filter` on its result, and a `climatology_average`. -/
def demoCalls : List (Api × List Nat) :=
  [(.delta_pressure, [0, 1, 2, 3, 4, 5, 6]), (.fourier_filter, [7, 8, 9, 6]),
   (.climatology_average, [3, 4, 5, 6])]

example : (∀ c ∈ demoCalls, c.1 ≠ .eofunc_eofs true true) ∧
    ((session (demo fun c => c ∈ ["type_surface_pressure == xr.DataArray", "xarray or ndarray",
      "low_pass", "freq == 'season'", "keep_attrs in {True, None}"]) demoCalls
        [10, 20, 30, 40, 50, 60, 70]).take 7 = [10, 20, 30, 40, 50, 60, 70]) ∧
    (session (demo fun c => c ∈ ["type_surface_pressure == xr.DataArray", "xarray or ndarray",
      "low_pass", "freq == 'season'", "keep_attrs in {True, None}"]) demoCalls
        [10, 20, 30, 40, 50, 60, 70]).length > 60 := by
  refine ⟨by decide, by decide +kernel, by decide +kernel⟩

/-- `eofunc_eofs(data, meta=True)` on a `DataArray` changes the caller's `data.attrs`. -/
theorem C169_counterexample :
    ∃ (I : Interp Nat) (h : List Nat) (args : List Nat),
      (call I (Api.eofunc_eofs true true).fn h args).2.isSome ∧
      ¬ Untouched h (call I (Api.eofunc_eofs true true).fn h args).1 := by
  refine ⟨demo fun _ => false, [10, 20, 30, 40, 50], [0, 1, 2, 3, 4], by decide +kernel, ?_⟩
  intro hu
  have := hu 1 (by decide)
  exact absurd this (by decide +kernel)

/-- That call changes nothing else: every object other than the `attrs` of its first argument keeps its
content. -/
theorem C169_only_attrs {V : Type} (I : Interp V) (h : List V) (d a k n w : Nat) :
    ∀ r < h.length, r ≠ a →
      (call I (Api.eofunc_eofs true true).fn h [d, a, k, n, w]).1[r]? = h[r]? := by
  obtain ⟨O, ho⟩ : ∃ O, owned (Api.eofunc_eofs true true).fn.body [A .data] = some O := by
    rw [← Option.isSome_iff_exists]; decide +kernel
  intro r hr hra
  have := exec_keeps I (fun r => r < h.length ∧ r ≠ a) (Api.eofunc_eofs true true).fn.body
    [A .data] O
    { heap := h, env := bindArgs (Api.eofunc_eofs true true).fn.params [d, a, k, n, w] } ho
    ⟨by
      intro x hx q hq hP
      rw [List.mem_singleton] at hx
      subst hx
      have : bindArgs (Api.eofunc_eofs true true).fn.params [d, a, k, n, w] (A .data) = some a := by
        rfl
      simp only at hq
      rw [this] at hq
      simp only [Option.some.injEq] at hq
      exact hP.2 hq.symm, fun _ hr => hr.1⟩
  rw [call_heap]
  exact this.1 r ⟨hr, hra⟩

example : (call (demo fun _ => false) (Api.eofunc_eofs true true).fn [10, 20, 30, 40, 50]
    [0, 1, 2, 3, 4]).1.take 5 ≠ [10, 20, 30, 40, 50] := by decide +kernel

/-! ### C170 -/

/-- What a call returns when nothing exists but its arguments, with the given contents: the value the
caller sees, `none` for an exception. -/
def alone {V : Type} (I : Interp V) (f : Fn) (vals : List V) : Option (List V) :=
  match call I f vals (List.range vals.length) with
  | (h, some rs) => contents h rs
  | (_, none) => none

/-- What the caller sees when making the call in a memory `h`. -/
def observed {V : Type} (I : Interp V) (f : Fn) (h : List V) (args : List Nat) : Option (List V) :=
  match call I f h args with
  | (h', some rs) => contents h' rs
  | (_, none) => none

theorem contents_length {V : Type} (h : List V) :
    ∀ (args : List Nat) (vals : List V), contents h args = some vals → args.length = vals.length
  | [], vals, hv => by simp [contents] at hv; subst hv; rfl
  | r :: rs, vals, hv => by
    unfold contents at hv
    split at hv
    · rename_i v vs h1 h2
      simp only [Option.some.injEq] at hv
      subst hv
      simp [contents_length h rs vs h2]
    · exact absurd hv (by simp)

theorem contents_get {V : Type} (h : List V) :
    ∀ (args : List Nat) (vals : List V), contents h args = some vals →
      ∀ i r : Nat, args[i]? = some r → h[r]? = vals[i]? ∧ r < h.length
  | [], _, _ => by intro i r hr; simp at hr
  | q :: qs, vals, hv => by
    unfold contents at hv
    split at hv
    · rename_i v vs h1 h2
      simp only [Option.some.injEq] at hv
      subst hv
      intro i r hr
      cases i with
      | zero =>
        simp only [List.getElem?_cons_zero, Option.some.injEq] at hr
        subst hr
        refine ⟨by simpa using h1, ?_⟩
        by_contra hlt
        rw [List.getElem?_eq_none (by omega)] at h1
        exact absurd h1 (by simp)
      | succ i =>
        simp only [List.getElem?_cons_succ] at hr ⊢
        exact contents_get h qs vs h2 i r hr
    · exact absurd hv (by simp)

theorem bindArgs_cases (xs : List Var) :
    ∀ (n k : Nat) (args : List Nat), args.length = n → ∀ y,
      (bindArgs xs args y = none ∧ bindArgs xs (List.range' k n) y = none) ∨
      ∃ i r, args[i]? = some r ∧ bindArgs xs args y = some r ∧
        bindArgs xs (List.range' k n) y = some (k + i) ∧ i < n := by
  induction xs with
  | nil => intro n k args _ y; exact Or.inl ⟨rfl, rfl⟩
  | cons x xs ih =>
    intro n k args hn y
    cases n with
    | zero =>
      have : args = [] := List.length_eq_zero_iff.mp hn
      subst this
      exact Or.inl ⟨rfl, rfl⟩
    | succ n =>
      cases args with
      | nil => simp at hn
      | cons r rs =>
        rw [List.range'_succ]
        unfold bindArgs
        by_cases hy : y = x
        · refine Or.inr ⟨0, r, rfl, by simp [hy], by simp [hy], by omega⟩
        · simp only [if_neg hy]
          rcases ih n (k + 1) rs (by simpa using hn) y with h1 | ⟨i, q, h1, h2, h3, h4⟩
          · exact Or.inl h1
          · exact Or.inr ⟨i + 1, q, by simpa using h1, h2, by rw [h3]; congr 1; omega, by omega⟩

theorem twin_contents {V : Type} {b₁ b₂ : Nat} {O : List Var} {s₁ s₂ : St V}
    (h : Twin b₁ b₂ O s₁ s₂) : ∀ xs : List Var,
      (results s₁ xs = none ∧ results s₂ xs = none) ∨
      ∃ rs₁ rs₂, results s₁ xs = some rs₁ ∧ results s₂ xs = some rs₂ ∧
        contents s₁.heap rs₁ = contents s₂.heap rs₂
  | [] => Or.inr ⟨[], [], rfl, rfl, rfl⟩
  | x :: xs => by
    have ih := twin_contents h xs
    unfold results
    rcases h.env x with ⟨h1, h2⟩ | ⟨r₁, r₂, h1, h2, h3⟩
    · left; rw [h1, h2]; exact ⟨rfl, rfl⟩
    · rw [h1, h2]
      rcases ih with ⟨g1, g2⟩ | ⟨rs₁, rs₂, g1, g2, g3⟩
      · left; rw [g1, g2]; exact ⟨rfl, rfl⟩
      · right
        rw [g1, g2]
        refine ⟨_, _, rfl, rfl, ?_⟩
        unfold contents
        rw [same_content h h3, g3]

/-- What a call returns — its values, and whether it raises — is determined by the contents of its
arguments: it is what the call would return if nothing else existed. -/
theorem C170_pure {V : Type} (I : Interp V) (f : Api) (hf : f ≠ .eofunc_eofs true true)
    (h : List V) (args : List Nat) (vals : List V) (hv : contents h args = some vals) :
    observed I f.fn h args = alone I f.fn vals := by
  obtain ⟨O, ho⟩ := api_owned f hf
  have hl := contents_length h args vals hv
  have htw : Twin h.length vals.length []
      ({ heap := h, env := bindArgs f.fn.params args } : St V)
      { heap := vals, env := bindArgs f.fn.params (List.range vals.length) } := by
    refine ⟨Nat.le_refl _, Nat.le_refl _, by simp, ?_, ?_, fun x hx => absurd hx (by simp)⟩
    · intro i
      rw [List.getElem?_eq_none (by simp), List.getElem?_eq_none (by simp)]
    · intro x
      have := bindArgs_cases f.fn.params vals.length 0 args hl x
      rw [← List.range_eq_range'] at this
      rcases this with h1 | ⟨i, r, h1, h2, h3, h4⟩
      · exact Or.inl h1
      · have hg := contents_get h args vals hv i r h1
        exact Or.inr ⟨r, i, h2, by simpa using h3, Or.inr ⟨hg.2, h4, hg.1⟩⟩
  have := exec_twin I h.length vals.length f.fn.body [] O _ _ ho htw
  unfold observed alone call
  rcases e1 : exec I f.fn.body { heap := h, env := bindArgs f.fn.params args } with ⟨s₁, c₁⟩
  rcases e2 : exec I f.fn.body
    { heap := vals, env := bindArgs f.fn.params (List.range vals.length) } with ⟨s₂, c₂⟩
  rw [e1, e2] at this
  obtain ⟨hb, ht⟩ := this
  dsimp only at hb
  subst hb
  cases c₁ with
  | false => rfl
  | true =>
    dsimp only
    rcases twin_contents (ht rfl) f.fn.rets with ⟨g1, g2⟩ | ⟨rs₁, rs₂, g1, g2, g3⟩
    · rw [g1, g2]
    · rw [g1, g2]; exact g3

theorem contents_untouched {V : Type} {h h' : List V} (hu : Untouched h h') :
    ∀ (args : List Nat) (vals : List V), contents h args = some vals → contents h' args = some vals
  | [], vals, hv => hv
  | r :: rs, vals, hv => by
    unfold contents at hv ⊢
    split at hv
    · rename_i v vs h1 h2
      have hr : r < h.length := by
        by_contra hlt
        rw [List.getElem?_eq_none (by omega)] at h1
        exact absurd h1 (by simp)
      rw [hu r hr, h1, contents_untouched hu rs vs h2]
      exact hv
    · exact absurd hv (by simp)

/-- A call on objects that existed at the start of a session returns the same whether it is made at the
start or after any other calls. -/
theorem C170_history_partial {V : Type} (I : Interp V) (calls : List (Api × List Nat))
    (hc : ∀ c ∈ calls, c.1 ≠ .eofunc_eofs true true) (f : Api) (hf : f ≠ .eofunc_eofs true true)
    (h : List V) (args : List Nat) (vals : List V) (hv : contents h args = some vals) :
    observed I f.fn (session I calls h) args = observed I f.fn h args := by
  have hu := (C169_untouched_partial I calls hc h).1
  rw [C170_pure I f hf _ args vals (contents_untouched hu args vals hv),
    C170_pure I f hf h args vals hv]

example : contents [10, 20, 30, 40, 50, 60, 70] [3, 4, 5, 6] = some [40, 50, 60, 70] ∧
    (observed (demo fun c => c = "low_pass") Api.fourier_filter.fn
      (session (demo fun c => c = "low_pass") demoCalls [10, 20, 30, 40, 50, 60, 70])
      [3, 4, 5, 6]).isSome := by
  refine ⟨by decide, by decide +kernel⟩

/-- After `eofunc_eofs(data, meta=True)` the same later call on the same `DataArray` returns something
else: the eigenvalues turn up in its attributes. -/
theorem C170_counterexample :
    ∃ (I : Interp Nat) (h : List Nat) (args : List Nat),
      observed I Api.climatology_average.fn (session I [(.eofunc_eofs true true, args)] h) args ≠
        observed I Api.climatology_average.fn h args ∧
      (observed I Api.climatology_average.fn h args).isSome := by
  refine ⟨demo fun c => c = "keep_attrs in {True, None}", [10, 20, 30, 40, 50], [0, 1, 2, 3, 4],
    by decide +kernel, by decide +kernel⟩

/-! ### C171 -/

/-- A program never shrinks the memory. -/
theorem exec_length {V : Type} (I : Interp V) (p : Stmt) :
    ∀ s : St V, s.heap.length ≤ (exec I p s).1.heap.length := by
  induction p with
  | skip => intro s; exact Nat.le_refl _
  | new x op ys =>
    intro s
    unfold exec
    cases reads s ys with
    | none => exact Nat.le_refl _
    | some vs => simp [alloc]
  | view x y =>
    intro s
    unfold exec
    cases s.env y with
    | none => exact Nat.le_refl _
    | some r => exact Nat.le_refl _
  | put x op ys =>
    intro s
    unfold exec
    split
    · simp
    · exact Nat.le_refl _
  | raiseIf c ys =>
    intro s
    unfold exec
    cases reads s ys with
    | none => exact Nat.le_refl _
    | some vs => exact Nat.le_refl _
  | ifte c ys t e iht ihe =>
    intro s
    unfold exec
    cases reads s ys with
    | none => exact Nat.le_refl _
    | some vs =>
      dsimp only
      split
      · exact iht s
      · exact ihe s
  | rep i n ys body ih =>
    intro s
    unfold exec
    cases reads s ys with
    | none => exact Nat.le_refl _
    | some vs =>
      dsimp only
      generalize I.count n vs = m
      generalize 0 = k
      induction m generalizing k s with
      | zero => exact Nat.le_refl _
      | succ m ihm =>
        unfold loop
        have h1 := ih (alloc s i (I.num k))
        rcases hx : exec I body (alloc s i (I.num k)) with ⟨s', b⟩
        rw [hx] at h1
        have h2 : s.heap.length ≤ s'.heap.length := by
          refine Nat.le_trans ?_ h1
          simp [alloc]
        cases b with
        | false => exact h2
        | true => exact Nat.le_trans h2 (ihm s' (k + 1))
  | seq p q ihp ihq =>
    intro s
    unfold exec
    have h1 := ihp s
    rcases hx : exec I p s with ⟨s', b⟩
    rw [hx] at h1
    cases b with
    | false => exact h1
    | true => exact Nat.le_trans h1 (ihq s')

/-- The result locations that come from the names `xs`. -/
theorem results_new {V : Type} (s : St V) (n : Nat) :
    ∀ xs : List Var, (∀ x ∈ xs, ∀ r, s.env x = some r → n ≤ r) →
      ∀ rs, results s xs = some rs → ∀ r ∈ rs, n ≤ r
  | [], _, rs, h => by
    simp only [results, Option.some.injEq] at h
    subst h
    intro r hr
    simp at hr
  | x :: xs, hx, rs, h => by
    unfold results at h
    split at h
    · rename_i r rs' h1 h2
      simp only [Option.some.injEq] at h
      subst h
      intro q hq
      rcases List.mem_cons.mp hq with rfl | hq
      · exact hx x (by simp) q h1
      · exact results_new s n xs (fun y hy => hx y (by simp [hy])) rs' h2 q hq
    · exact absurd h (by simp)

/-- The result of every function but `gradient` is made of new objects: its values, its attributes and
its coordinate mapping are none of the caller's, so changing the result later changes nothing the
caller had. -/
theorem C171_new_partial {V : Type} (I : Interp V) (f : Api) (hf : f ≠ .gradient)
    (h : List V) (args rs : List Nat) (hr : (call I f.fn h args).2 = some rs) :
    ∀ r ∈ rs, h.length ≤ r := by
  unfold call at hr
  rcases e1 : exec I f.fn.body { heap := h, env := bindArgs f.fn.params args } with ⟨s, c⟩
  rw [e1] at hr
  cases c with
  | false => exact absurd hr (by simp)
  | true =>
    dsimp only at hr
    by_cases hm : f = .eofunc_eofs true true
    · subst hm
      -- the result is the `DataArray` built by the last statement
      apply results_new s h.length _ _ rs hr
      intro x hx r hxr
      simp only [Api.fn, eofuncEofs, if_true, newX] at e1 hx
      have split_run : ∀ (p q : Stmt) (t t' : St V), exec I (p ;; q) t = (t', true) →
          ∃ u, exec I p t = (u, true) ∧ exec I q u = (t', true) := by
        intro p q t t' hpq
        unfold exec at hpq
        rcases hp : exec I p t with ⟨u, b⟩
        rw [hp] at hpq
        cases b with
        | false => exact absurd hpq (by simp)
        | true => exact ⟨u, rfl, hpq⟩
      have new_run : ∀ (y : Var) (op : String) (ys : List Var) (t t' : St V),
          exec I (.new y op ys) t = (t', true) → ∃ v, t' = alloc t y v := by
        intro y op ys t t' hn
        unfold exec at hn
        cases hy : reads t ys with
        | none => rw [hy] at hn; exact absurd hn (by simp)
        | some vs =>
          rw [hy] at hn
          simp only [Prod.mk.injEq, and_true] at hn
          exact ⟨_, hn.symm⟩
      obtain ⟨u1, a1, e1⟩ := split_run _ _ _ _ e1
      obtain ⟨u2, a2, e1⟩ := split_run _ _ _ _ e1
      obtain ⟨u3, a3, e1⟩ := split_run _ _ _ _ e1
      obtain ⟨u4, a4, e1⟩ := split_run _ _ _ _ e1
      obtain ⟨u5, a5, e1⟩ := split_run _ _ _ _ e1
      obtain ⟨u6, a6, e1⟩ := split_run _ _ _ _ e1
      obtain ⟨u7, a7, e1⟩ := split_run _ _ _ _ e1
      obtain ⟨u8, a8, e1⟩ := split_run _ _ _ _ e1
      obtain ⟨u9, a9, e1⟩ := split_run _ _ _ _ e1
      obtain ⟨v1, b1, e1⟩ := split_run _ _ _ _ e1
      obtain ⟨v2, b2, e1⟩ := split_run _ _ _ _ e1
      have hlen : h.length ≤ u9.heap.length := by
        have l1 := exec_length I (eofsSolver true)
          { heap := h, env := bindArgs (Api.eofunc_eofs true true).fn.params args }
        have step : ∀ (p : Stmt) (t t' : St V), exec I p t = (t', true) →
            t.heap.length ≤ t'.heap.length := fun p t t' hp => by
          have := exec_length I p t; rw [hp] at this; exact this
        have m1 := step _ _ _ a1
        have m2 := step _ _ _ a2
        have m3 := step _ _ _ a3
        have m4 := step _ _ _ a4
        have m5 := step _ _ _ a5
        have m6 := step _ _ _ a6
        have m7 := step _ _ _ a7
        have m8 := step _ _ _ a8
        have m9 := step _ _ _ a9
        simp only at m1
        omega
      obtain ⟨w1, rfl⟩ := new_run _ _ _ _ _ b1
      obtain ⟨w2, rfl⟩ := new_run _ _ _ _ _ b2
      obtain ⟨w3, rfl⟩ := new_run _ _ _ _ _ e1
      simp only [List.mem_cons, List.not_mem_nil, or_false] at hx
      rcases hx with rfl | rfl | rfl <;>
        simp [alloc, bindVar] at hxr <;> omega
    · obtain ⟨O, ho, hsub⟩ := api_rets f hm
      have hk := exec_keeps I (· < h.length) f.fn.body [] O
        { heap := h, env := bindArgs f.fn.params args } ho (guard_start h _)
      rw [e1] at hk
      have hg := hk.2.2.2 rfl
      apply results_new s h.length _ _ rs hr
      intro x hx r hxr
      have hl : x.2 ≠ .lonlat := by
        have : ∀ x ∈ f.fn.rets, x.2 ≠ .lonlat := by
          cases f with
          | gradient => exact absurd rfl hf
          | eofunc_eofs d m => cases d <;> cases m <;> decide +kernel
          | eofunc_pcs d m => cases d <;> cases m <;> decide +kernel
          | eofunc m => cases m <;> decide +kernel
          | eofunc_ts m => cases m <;> decide +kernel
          | _ => decide +kernel
        exact this x hx
      have := hg.1 x (hsub x hx hl) r hxr
      omega

example : (call (demo fun _ => false) Api.fourier_filter.fn [10, 20, 30, 40] [0, 1, 2, 3]).2 =
    some [7, 8, 9] := by decide +kernel

/-- `gradient`, given two-dimensional longitudes and latitudes, returns them: the coordinates of its
result are the caller's own arrays. -/
theorem C171_counterexample :
    ∃ (I : Interp Nat) (h args rs : List Nat),
      (call I Api.gradient.fn h args).2 = some rs ∧ ∃ r ∈ rs, r ∈ args := by
  refine ⟨demo fun _ => false, [10, 20, 30, 40, 50, 60], [0, 1, 2, 3, 4, 5], _,
    (by decide +kernel : _ = some [9, 10, 11, 12, 13, 14, 4, 3]), 4, by decide, by decide⟩

/-- The values, attributes and coordinate mappings of `gradient`'s two results are new. -/
theorem C171_gradient {V : Type} (I : Interp V) (h : List V) (args rs : List Nat)
    (hr : (call I Api.gradient.fn h args).2 = some rs) : ∀ r ∈ rs.take 6, h.length ≤ r := by
  unfold call at hr
  rcases e1 : exec I Api.gradient.fn.body
    { heap := h, env := bindArgs Api.gradient.fn.params args } with ⟨s, c⟩
  rw [e1] at hr
  cases c with
  | false => exact absurd hr (by simp)
  | true =>
    dsimp only at hr
    obtain ⟨O, ho, hsub⟩ := api_rets .gradient (by simp)
    have hk := exec_keeps I (· < h.length) Api.gradient.fn.body [] O
      { heap := h, env := bindArgs Api.gradient.fn.params args } ho (guard_start h _)
    rw [e1] at hk
    have hg := hk.2.2.2 rfl
    have hap : ∀ (xs ys : List Var) rs, results s (xs ++ ys) = some rs →
        results s xs = some (rs.take xs.length) := by
      intro xs
      induction xs with
      | nil => intro ys rs _; simp [results]
      | cons x xs ih =>
        intro ys rs hrs
        rw [List.cons_append] at hrs
        unfold results at hrs ⊢
        split at hrs
        · rename_i r rs' h1 h2
          simp only [Option.some.injEq] at hrs
          subst hrs
          rw [h1, ih ys rs' h2]
          simp
        · exact absurd hrs (by simp)
    have h6 := hap (X .axis0grad ++ X .axis1grad)
      [(.axis0grad, .lonlat), (.axis1grad, .lonlat)] rs hr
    apply results_new s h.length _ _ _ h6
    intro x hx r hxr
    have := hg.1 x (hsub x (List.mem_append_left _ hx) (by
      have : ∀ x ∈ X .axis0grad ++ X .axis1grad, x.2 ≠ .lonlat := by decide
      exact this x hx)) r hxr
    omega

end Verif.Props
