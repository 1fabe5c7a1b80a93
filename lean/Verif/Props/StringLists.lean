import Verif.Lemmas.StringList
/-!
# C80: lists of strings in memory

Every function of string_list.c computes on the linked cells in memory what the rest of the
model computes on lists, touches nothing but the lists it was given, and gives back exactly
what it should. The one way to misuse them is to append a list to itself.
-/

namespace Selint

open Spec

/-! ## A memory with two lists

The list `{ a b }`, its second string marked, and the list `{ c }`. -/

/-- The two lists and nothing else. -/
def twoLists : Mem :=
  ⟨fun
    | 0 => some (.bytes cs!"a")
    | 1 => some (.bytes cs!"b")
    | 2 => some (.bytes cs!"c")
    | 3 => some (.sl ⟨some 0, some 4, false⟩)
    | 4 => some (.sl ⟨some 1, none, true⟩)
    | 5 => some (.sl ⟨some 2, none, false⟩)
    | _ => none, 6⟩

theorem twoLists_bounded : Bounded twoLists := by
  intro q hq
  have : 6 ≤ q := hq
  obtain ⟨k, rfl⟩ : ∃ k, q = k + 6 := ⟨q - 6, by omega⟩
  rfl

theorem twoLists_first :
    SlAt twoLists (some 3) [(cs!"a", false), (cs!"b", true)] [3, 0, 4, 1] :=
  .cons rfl rfl (.cons rfl rfl .nil (by simp) (by simp)) (by simp) (by simp)

theorem twoLists_second : SlAt twoLists (some 5) [(cs!"c", false)] [5, 2] :=
  .cons rfl rfl .nil (by simp) (by simp)

/-! ## Searching -/

/-- Searching a list for a string finds out whether the string is in the list. -/
theorem C80_search {m p l ps} (h : SlAt m p l ps) (s : Str) {fuel : Nat}
    (hf : l.length ≤ fuel) :
    m.strInSl fuel s p = .ok (decide (s ∈ l.map (·.1))) := strInSl_mem h s hf

example : twoLists.strInSl 2 cs!"b" (some 3) = .ok true :=
  C80_search twoLists_first _ (Nat.le_refl _)

example : twoLists.strInSl 2 cs!"c" (some 3) = .ok false :=
  C80_search twoLists_first _ (Nat.le_refl _)

/-! ## Making lists -/

/-- The new list has one string, a copy, and consists of new objects only. -/
theorem C80_from_str {m : Mem} (hb : Bounded m) (s : Str) :
    ∃ p m' ps, m.slFromStr s = (p, m') ∧ NamesAt m' (some p) [s] ps ∧ AddsOnly m m' ps ∧
      Bounded m' := by
  obtain ⟨ps, h₁, h₂, h₃⟩ := slFromStr_spec hb s
  exact ⟨_, _, ps, rfl, h₁, h₂, h₃⟩

example : ∃ p m' ps, twoLists.slFromStr cs!"d" = (p, m') ∧ NamesAt m' (some p) [cs!"d"] ps ∧
    AddsOnly twoLists m' ps ∧ Bounded m' := C80_from_str twoLists_bounded _

/-- As before, with at most so many characters of the string. -/
theorem C80_from_strn {m : Mem} (hb : Bounded m) (s : Str) (len : Nat) :
    ∃ p m' ps, m.slFromStrn s len = (p, m') ∧ NamesAt m' (some p) [s.take len] ps ∧
      AddsOnly m m' ps ∧ Bounded m' := by
  obtain ⟨ps, h₁, h₂, h₃⟩ := slFromStr_spec hb (s.take len)
  exact ⟨_, _, ps, rfl, h₁, h₂, h₃⟩

/-- The new list takes over the string it is given: that becomes part of what the list
owns. -/
theorem C80_consume {m : Mem} (hb : Bounded m) {p : Option Addr} {s : Str} {ps : List Addr}
    (h : StrAt m p s ps) :
    ∃ q m', m.slFromStrConsume p = (q, m') ∧ NamesAt m' (some q) [s] (q :: ps) ∧
      AddsOnly m m' [q] ∧ Bounded m' := by
  cases h with
  | @mk a s h =>
    have ha : a ≠ m.top := by
      rintro rfl
      simp [hb m.top (Nat.le_refl _)] at h
    refine ⟨_, _, rfl, .cons (n := none) ?_ ?_ .nil (by simp) (by simp), ⟨?_, ?_⟩,
      Bounded.malloc hb _⟩
    · simp
    · simp [ha, h]
    · intro q hq
      simp only [List.mem_singleton] at hq
      exact hb q (by simp [hq])
    · intro q hq
      simp only [List.mem_singleton] at hq
      have : q ≠ m.top := hq
      simp [this]

/-- The string `c`, taken out of its list. -/
example : ∃ q m', twoLists.slFromStrConsume (some 2) = (q, m') ∧
    NamesAt m' (some q) [cs!"c"] [q, 2] ∧ AddsOnly twoLists m' [q] ∧ Bounded m' :=
  C80_consume twoLists_bounded (.mk rfl)

/-- A copy has the strings and marks of the list it was made from and shares no object with
anything that was there before. -/
theorem C80_copy {m p l ps} (hb : Bounded m) (h : SlAt m p l ps) {fuel : Nat}
    (hf : l.length ≤ fuel) :
    ∃ p' m' qs, m.copyStringList fuel p = .ok (p', m') ∧ SlAt m' p' l qs ∧ AddsOnly m m' qs ∧
      Bounded m' := by
  cases p with
  | none =>
    cases h
    exact ⟨none, m, [], rfl, .nil, ⟨by simp, fun _ _ => rfl⟩, hb⟩
  | some p =>
    obtain ⟨m'', qs, h₁, h₂, h₃, h₄, h₅⟩ := copyLoop_spec h (m' := (m.malloc .raw).2)
      (cur := m.top) (fuel := fuel) rfl
      (by
        intro q hq
        have := Bounded.lt hb h.live q hq
        rw [malloc_obj, if_neg (by omega)])
      (Bounded.malloc hb _) (by simp [malloc_obj])
      (by
        intro hq
        have := Bounded.lt hb h.live _ hq
        omega) hf
    simp only [malloc_top] at h₄
    refine ⟨some m.top, m'', m.top :: qs, ?_, h₂, ⟨?_, ?_⟩, h₃⟩
    · simp only [Mem.copyStringList, malloc_fst]
      rw [h₁, Res.bind_ok]
    · intro q hq
      simp only [List.mem_cons] at hq
      rcases hq with rfl | hq
      · exact hb _ (Nat.le_refl _)
      · have := h₄ q hq; exact hb _ (by omega)
    · intro q hq
      simp only [List.mem_cons, not_or] at hq
      rw [h₅ q hq.1 hq.2, malloc_obj, if_neg hq.1]

example : ∃ p' m' qs, twoLists.copyStringList 2 (some 3) = .ok (p', m') ∧
    SlAt m' p' [(cs!"a", false), (cs!"b", true)] qs ∧ AddsOnly twoLists m' qs ∧ Bounded m' :=
  C80_copy twoLists_bounded twoLists_first (Nat.le_refl _)

/-! ## Joining lists -/

/-- Joining two lists that share nothing gives the one followed by the other, made of the
objects of both. -/
theorem C80_concat {m h t l l' ps qs} (h₁ : SlAt m h l ps) (h₂ : SlAt m t l' qs)
    (hd : ∀ q ∈ ps, q ∉ qs) {fuel : Nat} (hf : l.length ≤ fuel) :
    ∃ r m', m.concatStringLists fuel h t = .ok (r, m') ∧ SlAt m' r (l ++ l') (ps ++ qs) ∧
      SameOff m m' ps := by
  obtain ⟨r, m', e₁, e₂, e₃, _⟩ := concat_spec h₁ h₂ hd hf
  exact ⟨r, m', e₁, e₂, e₃⟩

example : ∃ r m', twoLists.concatStringLists 2 (some 3) (some 5) = .ok (r, m') ∧
    SlAt m' r [(cs!"a", false), (cs!"b", true), (cs!"c", false)] [3, 0, 4, 1, 5, 2] ∧
    SameOff twoLists m' [3, 0, 4, 1] :=
  C80_concat twoLists_first twoLists_second (by decide) (Nat.le_refl _)

theorem fromStrs_spec (ss : List Str) : ∀ {m : Mem} {ret : Option Addr} {l : List (Str × Bool)}
    {ps : List Addr} {fuel : Nat}, Bounded m → SlAt m ret l ps → l.length + ss.length ≤ fuel →
    ∃ r m' qs, m.slFromStrs fuel ret ss = .ok (r, m') ∧
      SlAt m' r (l ++ ss.map fun s => (s, false)) (ps ++ qs) ∧ (∀ q ∈ qs, m.obj q = none) ∧
      SameOff m m' (ps ++ qs) ∧ Bounded m' := by
  induction ss with
  | nil =>
    intro m ret l ps fuel hb h hf
    exact ⟨ret, m, [], rfl, by simpa using h, by simp, fun _ _ => rfl, hb⟩
  | cons s ss ih =>
    intro m ret l ps fuel hb h hf
    simp only [List.length_cons] at hf
    obtain ⟨ps₁, a₁, a₂, a₃⟩ := slFromStr_spec hb s
    obtain ⟨r, m₁, b₁, b₂, b₃, b₄, b₅⟩ := concat_spec (h.congr (a₂.eqOn h.live)) a₁
      (a₂.live_disjoint h.live) (fuel := fuel) (by omega)
    have hb₁ : Bounded m₁ := by
      intro q hq
      rw [b₄] at hq
      have hq' := a₃ q hq
      rw [b₃ q, hq']
      intro hqp
      exact h.live q hqp ((a₂.2 q (a₂.live_disjoint h.live q hqp)) ▸ hq')
    obtain ⟨r', m', qs, c₁, c₂, c₃, c₄, c₅⟩ := ih hb₁ b₂ (fuel := fuel) (by simp; omega)
    refine ⟨r', m', ps₁ ++ qs, ?_, by simpa using c₂, ?_, ?_, c₅⟩
    · simp only [Mem.slFromStrs, b₁, Res.bind_ok, c₁]
    · intro q hq
      simp only [List.mem_append] at hq
      rcases hq with hq | hq
      · exact a₂.1 q hq
      · have hn := c₃ q hq
        have hq₁ : q ∉ ps := fun h => b₅ q h hn
        have hq₂ : q ∉ ps₁ := by
          intro h
          have := a₁.live q h
          rw [← b₃ q hq₁] at this
          exact this hn
        rw [← a₂.2 q hq₂, ← b₃ q hq₁, hn]
    · intro q hq
      simp only [List.mem_append, not_or] at hq
      rw [c₄ q (by simp [hq]), b₃ q hq.1, a₂.2 q hq.2.1]

/-- The list made from several strings has these strings, in order, all copied. -/
theorem C80_from_strs {m : Mem} (hb : Bounded m) (ss : List Str) {fuel : Nat}
    (hf : ss.length ≤ fuel) :
    ∃ r m' ps, m.slFromStrs fuel none ss = .ok (r, m') ∧ NamesAt m' r ss ps ∧ AddsOnly m m' ps ∧
      Bounded m' := by
  obtain ⟨r, m', qs, h₁, h₂, h₃, h₄, h₅⟩ := fromStrs_spec ss hb .nil (fuel := fuel) (by simpa)
  exact ⟨r, m', qs, h₁, h₂, ⟨h₃, h₄⟩, h₅⟩

example : ∃ r m' ps, Mem.empty.slFromStrs 2 none [cs!"x", cs!"y"] = .ok (r, m') ∧
    NamesAt m' r [cs!"x", cs!"y"] ps ∧ AddsOnly Mem.empty m' ps ∧ Bounded m' :=
  C80_from_strs (fun _ _ => rfl) _ (Nat.le_refl _)

/-- Appending a string to a list that is not empty makes a copy of it the last string of the
list. -/
theorem C80_append {m : Mem} {p : Addr} {l : List (Str × Bool)} {ps : List Addr}
    (hb : Bounded m) (h : SlAt m (some p) l ps) (s : Str) {fuel : Nat} (hf : l.length ≤ fuel) :
    ∃ m' qs, m.appendToSl fuel (some p) s = .ok (.success, m') ∧
      SlAt m' (some p) (l ++ [(s, false)]) (ps ++ qs) ∧ (∀ q ∈ qs, m.obj q = none) ∧
      SameOff m m' (ps ++ qs) := by
  obtain ⟨cur, c, e₁, e₂, e₃, e₄, e₅⟩ := lastCell_spec h rfl hf
  obtain ⟨qs, a₁, a₂, a₃⟩ := slFromStr_spec hb s
  have hd := a₂.live_disjoint h.live
  have hc : (m.slFromStr s).2.obj cur = some (.sl c) := by rw [a₂.2 cur (hd _ e₂)]; exact e₃
  refine ⟨_, qs, ?_, e₅ (m' := ⟨fun q => if q = cur then
    some (.sl { c with next := some (m.slFromStr s).1 }) else (m.slFromStr s).2.obj q,
    (m.slFromStr s).2.top⟩) (t := some (m.slFromStr s).1) ?_ (by simp) ?_ hd, a₂.1, ?_⟩
  · simp only [Mem.appendToSl, e₁, Res.bind_ok, setNext_ok hc]
  · intro q hq hqp
    simp [hq, a₂.2 q (hd _ hqp)]
  · refine a₁.congr fun q hq => ?_
    have : q ≠ cur := by rintro rfl; exact hd _ e₂ hq
    simp [this]
  · intro q hq
    simp only [List.mem_append, not_or] at hq
    have : q ≠ cur := by rintro rfl; exact hq.1 e₂
    simp [this, a₂.2 q hq.2]

example : ∃ m' qs, twoLists.appendToSl 2 (some 3) cs!"z" = .ok (.success, m') ∧
    SlAt m' (some 3) [(cs!"a", false), (cs!"b", true), (cs!"z", false)] ([3, 0, 4, 1] ++ qs) ∧
    (∀ q ∈ qs, twoLists.obj q = none) ∧ SameOff twoLists m' ([3, 0, 4, 1] ++ qs) :=
  C80_append twoLists_bounded twoLists_first _ (Nat.le_refl _)

/-- There is no such list as NULL to append to. -/
theorem C80_append_null (m : Mem) (s : Str) (fuel : Nat) :
    m.appendToSl fuel none s = .ok (.badArg, m) := rfl

/-! ## Giving lists back -/

/-- Freeing a list frees everything it owns, once, and nothing else. -/
theorem C80_free {m p l ps} (h : SlAt m p l ps) {fuel : Nat} (hf : l.length ≤ fuel) :
    m.freeStringList fuel p = .ok (dropped m ps) := freeStringList_eq h hf

example : twoLists.freeStringList 2 (some 3) = .ok (dropped twoLists [3, 0, 4, 1]) :=
  C80_free twoLists_first (Nat.le_refl _)

/-- A list that was freed must not be freed again, searched, copied or appended to. -/
theorem C80_after_free {m : Mem} {p : Addr} {l : List (Str × Bool)} {ps : List Addr}
    (h : SlAt m (some p) l ps) (fuel : Nat) (s : Str) :
    (dropped m ps).freeStringList fuel (some p) = .ub ∧
    (dropped m ps).strInSl fuel s (some p) = .ub ∧
    (dropped m ps).copyStringList fuel (some p) = .ub ∧
    (dropped m ps).appendToSl fuel (some p) s = .ub := by
  have hp : (dropped m ps).obj p = none := by
    cases h with
    | cons => simp [dropped_obj]
  refine ⟨?_, ?_, ?_, ?_⟩
  · cases fuel <;> simp [Mem.freeStringList, Mem.get, hp]
  · cases fuel <;> simp [Mem.strInSl, Mem.get, hp]
  · have : (dropped m ps).copyStringList fuel (some p) =
        (do let m' ← ((dropped m ps).malloc .raw).2.copyLoop fuel p (dropped m ps).top
            Res.ok (some (dropped m ps).top, m')) := rfl
    rw [this]
    cases fuel with
    | zero => rfl
    | succ fuel =>
      have : ((dropped m ps).malloc .raw).2.get Obj.sl? p = .ub := by
        simp only [Mem.get, malloc_obj, hp]
        split <;> rename_i h
        · rfl
        · split at h
          · cases h; rfl
          · cases h
      rw [Mem.copyLoop, this]
      rfl
  · cases fuel <;> simp [Mem.appendToSl, Mem.lastCell, Mem.get, hp]

example : (dropped twoLists [3, 0, 4, 1]).freeStringList 9 (some 3) = .ub :=
  (C80_after_free twoLists_first 9 []).1

/-! ## A list appended to itself -/

/-- A last cell that points to `p` instead of to nothing. -/
def redirect (p : Addr) : Obj → Obj
  | .sl ⟨a, none, b⟩ => .sl ⟨a, some p, b⟩
  | o => o

theorem free_redirected {m q l ps} (h : SlAt m q l ps) {p : Addr} :
    ∀ {m' : Mem}, (∀ r ∈ ps, m'.obj r = (m.obj r).map (redirect p)) → m'.obj p = none →
      q ≠ none → ∀ fuel, m'.freeStringList fuel q = .ub := by
  induction h with
  | nil => intro _ _ _ h; exact absurd rfl h
  | @cons q a n s b l ps h₁ h₂ h₃ h₄ h₅ ih =>
    intro m' he hp _ fuel
    obtain _ | fuel := fuel
    · rfl
    have e₁ := he q (by simp)
    have e₂ := he a (by simp)
    rw [h₁] at e₁
    rw [h₂] at e₂
    simp only [Option.map_some, redirect] at e₂
    have hqa : q ≠ a := by rintro rfl; simp [h₁] at h₂
    have f₁ : m'.free (some a) = .ok (dropped m' [a]) := free_ok (by simp [e₂])
    have f₂ : (dropped m' [a]).free (some q) = .ok (dropped (dropped m' [a]) [q]) :=
      free_ok (by simp [dropped_obj, hqa, e₁])
    have hp' : (dropped (dropped m' [a]) [q]).obj p = none := by
      rw [dropped_dropped, dropped_obj]; split <;> simp [hp]
    cases n with
    | none =>
      simp only [Option.map_some, redirect] at e₁
      rw [Mem.freeStringList, get_eq e₁ (f := Obj.sl?) rfl, Res.bind_ok, f₁, Res.bind_ok, f₂,
        Res.bind_ok]
      cases fuel <;> simp [Mem.freeStringList, Mem.get, hp']
    | some n =>
      simp only [Option.map_some, redirect] at e₁
      rw [Mem.freeStringList, get_eq e₁ (f := Obj.sl?) rfl, Res.bind_ok, f₁, Res.bind_ok, f₂,
        Res.bind_ok]
      refine ih ?_ hp' (by simp) fuel
      intro r hr
      rw [dropped_dropped, dropped_obj, if_neg (by grind), he r (by simp [hr])]

theorem search_redirected {m : Mem} {p : Addr} {l : List (Str × Bool)} {ps : List Addr}
    (h : SlAt m (some p) l ps) {m' : Mem} (he : ∀ r ∈ ps, m'.obj r = (m.obj r).map (redirect p))
    {s : Str} (hs : s ∉ l.map (·.1)) :
    ∀ fuel {q l' ps'}, SlAt m (some q) l' ps' → (∀ r ∈ ps', r ∈ ps) →
      (∀ x ∈ l', x ∈ l) → m'.strInSl fuel s (some q) = .ub := by
  intro fuel
  induction fuel with
  | zero => intros; rfl
  | succ fuel ih =>
    intro q l' ps' hq hr hx
    cases hq with
    | @cons q a n s' b l' ps' h₁ h₂ h₃ h₄ h₅ =>
      have e₁ := he q (hr _ (by simp))
      have e₂ := he a (hr _ (by simp))
      rw [h₁] at e₁
      rw [h₂] at e₂
      simp only [Option.map_some, redirect] at e₂
      have hne : strcmp s' s ≠ 0 := by
        rw [Ne, strcmp_eq_zero]
        rintro rfl
        exact hs (List.mem_map.2 ⟨_, hx _ (List.mem_cons_self ..), rfl⟩)
      cases n with
      | none =>
        simp only [Option.map_some, redirect] at e₁
        rw [Mem.strInSl, get_eq e₁ (f := Obj.sl?) rfl, Res.bind_ok, Mem.getAt,
          get_eq e₂ (f := Obj.str?) rfl, Res.bind_ok, if_neg hne]
        exact ih h (fun _ h => h) (fun _ h => h)
      | some n =>
        simp only [Option.map_some, redirect] at e₁
        rw [Mem.strInSl, get_eq e₁ (f := Obj.sl?) rfl, Res.bind_ok, Mem.getAt,
          get_eq e₂ (f := Obj.str?) rfl, Res.bind_ok, if_neg hne]
        exact ih h₃ (fun r h => hr r (by simp [h])) (fun x h => hx x (by simp [h]))

theorem lastCell_unique {m q l ps} (h : SlAt m q l ps) :
    ∀ {sl fuel cur}, q = some sl → m.lastCell fuel sl = .ok cur →
      ∀ r ∈ ps, ∀ a b, m.obj r = some (.sl ⟨a, none, b⟩) → r = cur := by
  induction h with
  | nil => intro _ _ _ h; cases h
  | @cons q a n s b l ps h₁ h₂ h₃ h₄ h₅ ih =>
    intro sl fuel cur hq hl r hr a' b' hra
    cases hq
    obtain _ | fuel := fuel
    · simp [Mem.lastCell] at hl
    rw [Mem.lastCell, get_eq h₁ (f := Obj.sl?) rfl, Res.bind_ok] at hl
    cases n with
    | none =>
      cases h₃
      simp only [Res.ok.injEq] at hl
      simp only [List.mem_cons, List.not_mem_nil, or_false] at hr
      rcases hr with rfl | rfl
      · exact hl
      · simp [h₂] at hra
    | some n =>
      simp only [List.mem_cons] at hr
      rcases hr with rfl | rfl | hr
      · simp [h₁] at hra
      · simp [h₂] at hra
      · exact ih rfl hl r hr a' b' hra

/-- A list joined to itself has no end: freeing it frees a cell a second time, and
searching it for a string that it does not contain goes on forever. -/
theorem C80_concat_self {m : Mem} {p : Addr} {l : List (Str × Bool)} {ps : List Addr}
    (h : SlAt m (some p) l ps) {fuel : Nat} (hf : l.length ≤ fuel) :
    ∃ m', m.concatStringLists fuel (some p) (some p) = .ok (some p, m') ∧
      (∀ fuel, m'.freeStringList fuel (some p) = .ub) ∧
      ∀ s, s ∉ l.map (·.1) → ∀ fuel, m'.strInSl fuel s (some p) = .ub := by
  obtain ⟨cur, c, e₁, e₂, e₃, e₄, _⟩ := lastCell_spec h rfl hf
  obtain ⟨ca, cn, cb⟩ := c
  subst e₄
  have he : ∀ r ∈ ps, (if r = cur then some (Obj.sl ⟨ca, some p, cb⟩) else m.obj r) =
      (m.obj r).map (redirect p) := by
    intro r hr
    split
    · rename_i hrc; rw [hrc, e₃]; rfl
    · rename_i hrc
      have hu := lastCell_unique h rfl e₁ r hr
      cases hm : m.obj r with
      | none => rfl
      | some o =>
        simp only [Option.map_some, Option.some.injEq]
        unfold redirect
        split
        · exact absurd (hu _ _ hm) hrc
        · rfl
  refine ⟨⟨fun q => if q = cur then some (Obj.sl ⟨ca, some p, cb⟩) else m.obj q, m.top⟩,
    by simp only [Mem.concatStringLists, e₁, Res.bind_ok, setNext_ok e₃], ?_, ?_⟩
  · intro fuel
    cases fuel with
    | zero => rfl
    | succ fuel =>
      cases h with
      | @cons p a n s b l ps h₁ h₂ h₃ h₄ h₅ =>
        have hpa : p ≠ a := by rintro rfl; simp [h₁] at h₂
        generalize hm' : (Mem.mk _ _) = m'
        have hobj : ∀ r, m'.obj r =
            if r = cur then some (Obj.sl ⟨ca, some p, cb⟩) else m.obj r := by
          intro r; rw [← hm']
        have he' : ∀ r ∈ p :: a :: ps, m'.obj r = (m.obj r).map (redirect p) := by
          intro r hr; rw [hobj, he r hr]
        have g₁ := he' p (by simp)
        have g₂ := he' a (by simp)
        rw [h₁] at g₁
        rw [h₂] at g₂
        simp only [Option.map_some, redirect] at g₂
        have f₁ : m'.free (some a) = .ok (dropped m' [a]) := free_ok (by simp [g₂])
        have f₂ : (dropped m' [a]).free (some p) = .ok (dropped (dropped m' [a]) [p]) :=
          free_ok (by simp [dropped_obj, hpa, g₁])
        have hp' : (dropped (dropped m' [a]) [p]).obj p = none := by
          rw [dropped_dropped, dropped_obj]; simp
        cases n with
        | none =>
          simp only [Option.map_some, redirect] at g₁
          rw [Mem.freeStringList, get_eq g₁ (f := Obj.sl?) rfl, Res.bind_ok, f₁, Res.bind_ok, f₂,
            Res.bind_ok]
          cases fuel <;> simp [Mem.freeStringList, Mem.get, hp']
        | some n =>
          simp only [Option.map_some, redirect] at g₁
          rw [Mem.freeStringList, get_eq g₁ (f := Obj.sl?) rfl, Res.bind_ok, f₁, Res.bind_ok, f₂,
            Res.bind_ok]
          refine free_redirected h₃ ?_ hp' (by simp) fuel
          intro r hr
          rw [dropped_dropped, dropped_obj, if_neg (by grind), he' r (by simp [hr])]
  · intro s hs fuel
    exact search_redirected h he hs fuel h (fun _ h => h) (fun _ h => h)

example : ∃ m', twoLists.concatStringLists 2 (some 3) (some 3) = .ok (some 3, m') ∧
    (∀ fuel, m'.freeStringList fuel (some 3) = .ub) ∧
    ∀ s, s ∉ [cs!"a", cs!"b"] → ∀ fuel, m'.strInSl fuel s (some 3) = .ub :=
  C80_concat_self twoLists_first (Nat.le_refl _)

end Selint
