import Verif.Spec.Ordering
/-!
# The ordering computation: simulation by chains

`Rep` relates the array to a list of chains: the `k`-th chain is a sequence of `k + 1`
indices, latest first, each of which may be followed by the one before it in the list.
-/

namespace Selint

namespace Lis

variable {α : Type}

/-- The members of the array, as functions of the index. -/
def nd (a : List (OrderNode α)) (j : Nat) : Option (Option α) := a[j]?.map (·.node)
/-- `seq_prev`. -/
def sp (a : List (OrderNode α)) (j : Nat) : Option Int := a[j]?.map (·.seqPrev)
/-- `end_of_seq`. -/
def en (a : List (OrderNode α)) (j : Nat) : Option Int := a[j]?.map (·.endOfSeq)
/-- `in_order`. -/
def io (a : List (OrderNode α)) (j : Nat) : Option Bool := a[j]?.map (·.inOrder)

theorem arrUpd_ok {a : List (OrderNode α)} {j : Nat} (h : j < a.length)
    (f : OrderNode α → OrderNode α) : arrUpd a (j : Int) f = .ok (a.set j (f a[j])) := by
  have h0 : ¬ ((j : Int) < 0) := by omega
  simp only [arrUpd, h0, if_false, Int.toNat_natCast, List.getElem?_eq_getElem h]

theorem arrGet_ok {a : List (OrderNode α)} {j : Nat} (h : j < a.length) :
    arrGet a (j : Int) = .ok a[j] := by
  have h0 : ¬ ((j : Int) < 0) := by omega
  simp only [arrGet, h0, if_false, Int.toNat_natCast, List.getElem?_eq_getElem h]

theorem en_get {a : List (OrderNode α)} {j : Nat} {v : Int} (h : en a j = some v) :
    ∃ hj : j < a.length, a[j].endOfSeq = v := by
  simp only [en, Option.map_eq_some_iff] at h
  obtain ⟨n, hn, e⟩ := h
  obtain ⟨hj, e'⟩ := List.getElem?_eq_some_iff.1 hn
  exact ⟨hj, by rw [e', e]⟩

theorem nd_get {a : List (OrderNode α)} {j : Nat} {v : Option α} (h : nd a j = some v) :
    ∃ hj : j < a.length, a[j].node = v := by
  simp only [nd, Option.map_eq_some_iff] at h
  obtain ⟨n, hn, e⟩ := h
  obtain ⟨hj, e'⟩ := List.getElem?_eq_some_iff.1 hn
  exact ⟨hj, by rw [e', e]⟩

theorem sp_get {a : List (OrderNode α)} {j : Nat} {v : Int} (h : sp a j = some v) :
    ∃ hj : j < a.length, a[j].seqPrev = v := by
  simp only [sp, Option.map_eq_some_iff] at h
  obtain ⟨n, hn, e⟩ := h
  obtain ⟨hj, e'⟩ := List.getElem?_eq_some_iff.1 hn
  exact ⟨hj, by rw [e', e]⟩

theorem arrNode_ok {a : List (OrderNode α)} {j : Nat} {v : α} (h : nd a j = some (some v)) :
    arrNode a (j : Int) = .ok v := by
  obtain ⟨hj, e⟩ := nd_get h
  simp only [arrNode, arrGet_ok hj, Res.bind_ok, e, Res.pure_eq]

/-- The array after an update of one element, member by member. -/
theorem nd_set (a : List (OrderNode α)) (j k : Nat) (h : j < a.length)
    (f : OrderNode α → OrderNode α) :
    nd (a.set j (f a[j])) k = if k = j then some (f a[j]).node else nd a k := by
  simp only [nd, List.getElem?_set]
  by_cases hk : k = j
  · subst hk; simp [h]
  · simp [hk, Ne.symm hk]

theorem sp_set (a : List (OrderNode α)) (j k : Nat) (h : j < a.length)
    (f : OrderNode α → OrderNode α) :
    sp (a.set j (f a[j])) k = if k = j then some (f a[j]).seqPrev else sp a k := by
  simp only [sp, List.getElem?_set]
  by_cases hk : k = j
  · subst hk; simp [h]
  · simp [hk, Ne.symm hk]

theorem en_set (a : List (OrderNode α)) (j k : Nat) (h : j < a.length)
    (f : OrderNode α → OrderNode α) :
    en (a.set j (f a[j])) k = if k = j then some (f a[j]).endOfSeq else en a k := by
  simp only [en, List.getElem?_set]
  by_cases hk : k = j
  · subst hk; simp [h]
  · simp [hk, Ne.symm hk]

theorem io_set (a : List (OrderNode α)) (j k : Nat) (h : j < a.length)
    (f : OrderNode α → OrderNode α) :
    io (a.set j (f a[j])) k = if k = j then some (f a[j]).inOrder else io a k := by
  simp only [io, List.getElem?_set]
  by_cases hk : k = j
  · subst hk; simp [h]
  · simp [hk, Ne.symm hk]

theorem nd_at (a : List (OrderNode α)) (j : Nat) (h : j < a.length) :
    nd a j = some a[j].node := by simp [nd, h]
theorem sp_at (a : List (OrderNode α)) (j : Nat) (h : j < a.length) :
    sp a j = some a[j].seqPrev := by simp [sp, h]
theorem en_at (a : List (OrderNode α)) (j : Nat) (h : j < a.length) :
    en a j = some a[j].endOfSeq := by simp [en, h]
theorem io_at (a : List (OrderNode α)) (j : Nat) (h : j < a.length) :
    io a j = some a[j].inOrder := by simp [io, h]

/-- Following `seq_prev` from `p` gives the indices of the list and then `-1`. -/
def Linked (sp : Nat → Option Int) : Int → List Nat → Prop
  | p, [] => p = -1
  | p, j :: js => p = j ∧ ∃ q, sp j = some q ∧ Linked sp q js

theorem Linked.congr {s s' : Nat → Option Int} {p : Int} {js : List Nat}
    (h : Linked s p js) (he : ∀ j ∈ js, s' j = s j) : Linked s' p js := by
  induction js generalizing p with
  | nil => exact h
  | cons j js ih =>
    obtain ⟨h1, q, h2, h3⟩ := h
    exact ⟨h1, q, by rw [he j (by simp)]; exact h2, ih h3 fun k hk => he k (by simp [hk])⟩

/-- A chain of `k + 1` indices below `i`, latest first, each accepted after the next one of
the list. -/
structure GoodChain (R : Nat → Nat → Prop) (i k : Nat) (p : List Nat) : Prop where
  len : p.length = k + 1
  lt : ∀ j ∈ p, j < i
  desc : p.Pairwise (· > ·)
  acc : Spec.Follows (fun a b => R b a) p

/-- The array represents the chains. -/
structure Rep (x : Nat → α) (R : Nat → Nat → Prop) (cap i : Nat)
    (a : List (OrderNode α)) (piles : List (List Nat)) : Prop where
  len : a.length = cap
  le : i ≤ cap
  node : ∀ j < i, nd a j = some (some (x j))
  back : ∀ j < i, ∃ q, sp a j = some q ∧ -1 ≤ q ∧ q < (j : Int)
  ends : ∀ k p, piles[k]? = some p → ∃ (h : Nat) (t : List Nat), p = h :: t ∧ en a k = some (h : Int) ∧
    Linked (sp a) h p
  good : ∀ k p, piles[k]? = some p → GoodChain R i k p
  pl : piles.length ≤ i
  fresh : ∀ j < cap, io a j = some false

/-- The latest index of the `k`-th chain. -/
def hd (piles : List (List Nat)) (k : Nat) : Nat := (piles.getD k []).headD 0

/-- What the main loop does to the chains. -/
def pileStep (piles : List (List Nat)) (i low : Nat) : List (List Nat) :=
  let new := i :: (if low ≤ 1 then [] else piles.getD (low - 2) [])
  if low - 1 < piles.length then piles.set (low - 1) new else piles ++ [new]

/-- The chains are as short-ended as possible: see `Opt`. -/
structure Opt (R : Nat → Nat → Prop) (i : Nat) (piles : List (List Nat)) : Prop where
  mono : ∀ k l, k < l → l < piles.length → R (hd piles k) (hd piles l)
  best : ∀ ys : List Nat, ys.Pairwise (· < ·) → Spec.Follows R ys → (∀ y ∈ ys, y < i) →
    ∀ z, ys.getLast? = some z → ys.length ≤ piles.length ∧ R (hd piles (ys.length - 1)) z

/-- The result of the binary search. -/
theorem search_ok (cmp : α → α → Res Int) (c : α → α → Int)
    (x : Nat → α) (hc : ∀ j k, cmp (x j) (x k) = .ok (c (x j) (x k))) (i : Nat)
    (a : List (OrderNode α)) (piles : List (List Nat))
    (hend : ∀ k < piles.length, en a k = some (hd piles k : Int))
    (hnd : ∀ k < piles.length, nd a (hd piles k) = some (some (x (hd piles k))))
    (hi : nd a i = some (some (x i))) :
    ∀ (fuel low high : Nat), high + 1 - low < fuel → 1 ≤ low → low ≤ high + 1 →
      high ≤ piles.length →
      (1 < low → 0 ≤ c (x (hd piles (low - 2))) (x i)) →
      ∃ r : Nat, lisSearch cmp a (i : Int) fuel (low : Int) (high : Int) = .ok (r : Int) ∧
        1 ≤ r ∧ r ≤ high + 1 ∧
        (1 < r → 0 ≤ c (x (hd piles (r - 2))) (x i)) ∧
        (∀ (_mono : ∀ k l, k < l → l < piles.length → 0 ≤ c (x (hd piles l)) (x i) →
            0 ≤ c (x (hd piles k)) (x i))
          (_hh : ∀ k, high ≤ k → k < piles.length → ¬ 0 ≤ c (x (hd piles k)) (x i)),
          ∀ k < piles.length, 0 ≤ c (x (hd piles k)) (x i) ↔ k + 1 < r) := by
  intro fuel
  induction fuel with
  | zero => intro low high hf; omega
  | succ fuel ih =>
    intro low high hf h1 hlh hL hlow
    unfold lisSearch
    by_cases hle : (low : Int) ≤ (high : Int)
    · rw [if_pos hle]
      have hmid : (((low : Int) + high + 1) / 2) = (((low + high + 1) / 2 : Nat) : Int) := by omega
      rw [hmid]
      generalize hm : (low + high + 1) / 2 = mid
      have hm1 : low ≤ mid := by omega
      have hm2 : mid ≤ high := by omega
      have hmL : mid - 1 < piles.length := by omega
      obtain ⟨hk, hek⟩ := en_get (hend (mid - 1) hmL)
      have hcast : ((mid : Int) - 1) = ((mid - 1 : Nat) : Int) := by omega
      simp only [hcast, arrGet_ok hk, Res.bind_ok, hek, arrNode_ok (hnd _ hmL), arrNode_ok hi, hc]
      by_cases hcmp : 0 ≤ c (x (hd piles (mid - 1))) (x i)
      · rw [if_pos hcmp]
        have := ih (mid + 1) high (by omega) (by omega) (by omega) hL
          (fun _ => by have e : mid + 1 - 2 = mid - 1 := by omega
                       rw [e]; exact hcmp)
        simpa using this
      · rw [if_neg hcmp]
        obtain ⟨r, hr, hr1, hr2, hr3, hr4⟩ := ih low (mid - 1) (by omega) h1 (by omega) (by omega) hlow
        refine ⟨r, hr, hr1, by omega, hr3, fun mono hh => hr4 mono ?_⟩
        intro k hk1 hk2 hk3
        by_cases hkm : k = mid - 1
        · subst hkm; exact hcmp hk3
        · exact hcmp (mono (mid - 1) k (by omega) hk2 hk3)
    · rw [if_neg hle]
      have hlh' : low = high + 1 := by omega
      refine ⟨low, rfl, h1, by omega, hlow, ?_⟩
      intro mono hh k hk
      constructor
      · intro hr
        by_cases hkh : high ≤ k
        · exact absurd hr (hh k hkh hk)
        · omega
      · intro hk'
        have hl1 : 1 < low := by omega
        have := hlow hl1
        by_cases hke : k = low - 2
        · subst hke; exact this
        · exact mono k (low - 2) (by omega) (by omega) this

theorem pileStep_get (piles : List (List Nat)) (i low : Nat) (h1 : 1 ≤ low)
    (h2 : low ≤ piles.length + 1) (k : Nat) :
    (pileStep piles i low)[k]? =
      if k = low - 1 then some (i :: (if low ≤ 1 then [] else piles.getD (low - 2) []))
      else piles[k]? := by
  simp only [pileStep]
  split
  · rename_i h
    rw [List.getElem?_set]
    by_cases hk : k = low - 1
    · subst hk; simp [h]
    · simp [hk, Ne.symm hk]
  · rename_i h
    rw [List.getElem?_append]
    by_cases hk : k = low - 1
    · subst hk
      have : low - 1 = piles.length := by omega
      simp [this]
    · rw [if_neg hk]
      by_cases hk' : k < piles.length
      · simp [hk']
      · simp only [hk', if_false]
        rw [List.getElem?_eq_none (by simp; omega), List.getElem?_eq_none (by omega)]

theorem pileStep_length (piles : List (List Nat)) (i low : Nat) (h1 : 1 ≤ low)
    (h2 : low ≤ piles.length + 1) :
    (pileStep piles i low).length = if low > piles.length then low else piles.length := by
  simp only [pileStep]
  by_cases h : low - 1 < piles.length
  · rw [if_pos h, List.length_set, if_neg (by omega)]
  · rw [if_neg h, List.length_append, List.length_singleton, if_pos (by omega)]
    omega

theorem hd_of_get {piles : List (List Nat)} {k : Nat} {h : Nat} {t : List Nat}
    (e : piles[k]? = some (h :: t)) : hd piles k = h := by
  simp [hd, List.getD_eq_getElem?_getD, e]

theorem hd_pileStep (piles : List (List Nat)) (i low : Nat) (h1 : 1 ≤ low)
    (h2 : low ≤ piles.length + 1) (k : Nat) :
    hd (pileStep piles i low) k = if k = low - 1 then i else hd piles k := by
  simp only [hd, List.getD_eq_getElem?_getD, pileStep_get piles i low h1 h2]
  split <;> simp

theorem Rep.hd_mem {x : Nat → α} {R : Nat → Nat → Prop} {cap i : Nat}
    {a : List (OrderNode α)} {piles : List (List Nat)} (r : Rep x R cap i a piles) {k : Nat}
    (hk : k < piles.length) :
    ∃ t, piles[k]? = some (hd piles k :: t) ∧ en a k = some (hd piles k : Int) ∧
      hd piles k < i ∧ Linked (sp a) (hd piles k) (hd piles k :: t) := by
  have e : piles[k]? = some piles[k] := List.getElem?_eq_getElem hk
  obtain ⟨h, t, hp, he, hl⟩ := r.ends k _ e
  have e' : piles[k]? = some (h :: t) := by rw [e, hp]
  have hh := hd_of_get e'
  have hg := r.good k _ e
  rw [hh]
  rw [hp] at hl
  exact ⟨t, e', he, hg.lt h (by rw [hp]; simp), hl⟩

/-- One iteration of the main loop. -/
theorem step_ok (cmp : α → α → Res Int) (c : α → α → Int)
    (x : Nat → α) (hc : ∀ j k, cmp (x j) (x k) = .ok (c (x j) (x k))) (cap i : Nat)
    (a : List (OrderNode α)) (piles : List (List Nat)) (R : Nat → Nat → Prop)
    (hR : ∀ j k, R j k ↔ 0 ≤ c (x j) (x k))
    (r : Rep x R cap i a piles) (hi : i < cap) (xs : List α) :
    ∃ (low : Nat) (a' : List (OrderNode α)), 1 ≤ low ∧ low ≤ piles.length + 1 ∧
      (1 < low → R (hd piles (low - 2)) i) ∧
      ((∀ k l, k < l → l < piles.length → R (hd piles l) i → R (hd piles k) i) →
        ∀ k < piles.length, R (hd piles k) i ↔ k + 1 < low) ∧
      Rep x R cap (i + 1) a' (pileStep piles i low) ∧
      lisLoop cmp (x i :: xs) a (piles.length : Int) (i : Int) =
        lisLoop cmp xs a' ((pileStep piles i low).length : Int) ((i + 1 : Nat) : Int) := by
  have hia : i < a.length := by rw [r.len]; exact hi
  -- nodes[index].node = cur
  let a1 := a.set i ({ a[i] with node := some (x i) })
  have e1 : arrUpd a (i : Int) (fun n => { n with node := some (x i) }) = .ok a1 := arrUpd_ok hia _
  have len1 : a1.length = cap := by simp [a1, r.len]
  have nd1 : ∀ k, nd a1 k = if k = i then some (some (x i)) else nd a k :=
    fun k => nd_set a i k hia (fun n => { n with node := some (x i) })
  have sp1 : ∀ k, sp a1 k = sp a k := by
    intro k
    have := sp_set a i k hia (fun n => { n with node := some (x i) })
    rw [show sp a1 k = _ from this]
    split
    · rename_i h; subst h; exact (sp_at a k hia).symm
    · rfl
  have en1 : ∀ k, en a1 k = en a k := by
    intro k
    have := en_set a i k hia (fun n => { n with node := some (x i) })
    rw [show en a1 k = _ from this]
    split
    · rename_i h; subst h; exact (en_at a k hia).symm
    · rfl
  have io1 : ∀ k, io a1 k = io a k := by
    intro k
    have := io_set a i k hia (fun n => { n with node := some (x i) })
    rw [show io a1 k = _ from this]
    split
    · rename_i h; subst h; exact (io_at a k hia).symm
    · rfl
  -- binary search
  obtain ⟨low, hs, hl1, hl2, hl3, hl4⟩ := search_ok cmp c x hc i a1 piles
    (fun k hk => by rw [en1]; obtain ⟨_, _, h, _⟩ := r.hd_mem hk; exact h)
    (fun k hk => by
      obtain ⟨_, _, _, h, _⟩ := r.hd_mem hk
      rw [nd1, if_neg (by omega)]; exact r.node _ h)
    (by rw [nd1]; simp) (piles.length + 1) 1 piles.length (by omega) (by omega) (by omega)
    (by omega) (by omega)
  have hs' : lisSearch cmp a1 (i : Int) ((piles.length : Int).toNat + 1) 1 (piles.length : Int) =
      .ok (low : Int) := by simpa using hs
  -- seq_prev
  let q : Int := if low ≤ 1 then -1 else (hd piles (low - 2) : Int)
  have hq : lisPrev a1 (low : Int) = .ok q := by
    unfold lisPrev
    by_cases h : low ≤ 1
    · rw [if_pos (by omega)]; simp [q, h]
    · rw [if_neg (by omega)]
      have hk : low - 2 < piles.length := by omega
      obtain ⟨_, _, he, _⟩ := r.hd_mem hk
      rw [← en1] at he
      obtain ⟨hj, he'⟩ := en_get he
      have hcast : ((low : Int) - 2) = ((low - 2 : Nat) : Int) := by omega
      rw [hcast, arrGet_ok hj]
      simp [he', q, h]
  have hqb : -1 ≤ q ∧ q < (i : Int) := by
    by_cases h : low ≤ 1
    · simp only [q, h, if_true]; omega
    · simp only [q, h, if_false]
      obtain ⟨_, _, _, hlt, _⟩ := r.hd_mem (k := low - 2) (by omega)
      omega
  have hia1 : i < a1.length := by omega
  let a2 := a1.set i ({ a1[i] with seqPrev := q })
  have e2 : arrUpd a1 (i : Int) (fun n => { n with seqPrev := q }) = .ok a2 := arrUpd_ok hia1 _
  have len2 : a2.length = cap := by simp [a2, len1]
  have sp2 : ∀ k, sp a2 k = if k = i then some q else sp a k := by
    intro k
    rw [← sp1]
    exact sp_set a1 i k hia1 (fun n => { n with seqPrev := q })
  have nd2 : ∀ k, nd a2 k = if k = i then some (some (x i)) else nd a k := by
    intro k
    rw [← nd1]
    have := nd_set a1 i k hia1 (fun n => { n with seqPrev := q })
    rw [show nd a2 k = _ from this]
    split
    · rename_i h; subst h; exact (nd_at a1 k hia1).symm
    · rfl
  have en2 : ∀ k, en a2 k = en a k := by
    intro k
    rw [← en1]
    have := en_set a1 i k hia1 (fun n => { n with seqPrev := q })
    rw [show en a2 k = _ from this]
    split
    · rename_i h; subst h; exact (en_at a1 k hia1).symm
    · rfl
  have io2 : ∀ k, io a2 k = io a k := by
    intro k
    rw [← io1]
    have := io_set a1 i k hia1 (fun n => { n with seqPrev := q })
    rw [show io a2 k = _ from this]
    split
    · rename_i h; subst h; exact (io_at a1 k hia1).symm
    · rfl
  -- end_of_seq
  have hpl := r.pl
  have hla2 : low - 1 < a2.length := by omega
  let a3 := a2.set (low - 1) ({ a2[low - 1] with endOfSeq := (i : Int) })
  have e3 : arrUpd a2 ((low : Int) - 1) (fun n => { n with endOfSeq := (i : Int) }) = .ok a3 := by
    have hcast : ((low : Int) - 1) = ((low - 1 : Nat) : Int) := by omega
    rw [hcast]; exact arrUpd_ok hla2 _
  have len3 : a3.length = cap := by simp [a3, len2]
  have en3 : ∀ k, en a3 k = if k = low - 1 then some (i : Int) else en a k := by
    intro k
    rw [← en2]
    exact en_set a2 (low - 1) k hla2 (fun n => { n with endOfSeq := (i : Int) })
  have nd3 : ∀ k, nd a3 k = if k = i then some (some (x i)) else nd a k := by
    intro k
    rw [← nd2]
    have := nd_set a2 (low - 1) k hla2 (fun n => { n with endOfSeq := (i : Int) })
    rw [show nd a3 k = _ from this]
    split
    · rename_i h; subst h; exact (nd_at a2 _ hla2).symm
    · rfl
  have sp3 : ∀ k, sp a3 k = if k = i then some q else sp a k := by
    intro k
    rw [← sp2]
    have := sp_set a2 (low - 1) k hla2 (fun n => { n with endOfSeq := (i : Int) })
    rw [show sp a3 k = _ from this]
    split
    · rename_i h; subst h; exact (sp_at a2 _ hla2).symm
    · rfl
  have io3 : ∀ k, io a3 k = io a k := by
    intro k
    rw [← io2]
    have := io_set a2 (low - 1) k hla2 (fun n => { n with endOfSeq := (i : Int) })
    rw [show io a3 k = _ from this]
    split
    · rename_i h; subst h; exact (io_at a2 _ hla2).symm
    · rfl
  refine ⟨low, a3, hl1, hl2, fun h => (hR _ _).2 (hl3 h), ?_, ?_, ?_⟩
  · intro mono k hk
    rw [hR]
    refine hl4 (fun k l hkl hl h => ?_) (fun k h1 h2 => by omega) k hk
    rw [← hR] at h ⊢
    exact mono k l hkl hl h
  · have newGood : GoodChain R (i + 1) (low - 1)
        (i :: (if low ≤ 1 then [] else piles.getD (low - 2) [])) ∧
        Linked (sp a3) (i : Int) (i :: (if low ≤ 1 then [] else piles.getD (low - 2) [])) := by
      by_cases h : low ≤ 1
      · simp only [h, if_true]
        refine ⟨⟨by simp; omega, by simp, by simp, by simp [Spec.Follows]⟩, rfl, q, ?_, ?_⟩
        · rw [sp3]; simp
        · simp [Linked, q, h]
      · simp only [h, if_false]
        obtain ⟨t, hp, he, hlt, hlk⟩ := r.hd_mem (k := low - 2) (by omega)
        have hg := r.good _ _ hp
        have hpd : piles.getD (low - 2) [] = hd piles (low - 2) :: t := by
          simp [List.getD_eq_getElem?_getD, hp]
        rw [hpd]
        refine ⟨⟨?_, ?_, ?_, ?_⟩, rfl, q, ?_, ?_⟩
        · have := hg.len; simp only [List.length_cons] at this ⊢; omega
        · intro j hj
          rcases List.mem_cons.1 hj with rfl | hj
          · omega
          · have := hg.lt j hj; omega
        · exact List.pairwise_cons.2 ⟨fun j hj => hg.lt j hj, hg.desc⟩
        · exact ⟨(hR _ _).2 (hl3 (by omega)), hg.acc⟩
        · rw [sp3]; simp
        · have hq' : q = (hd piles (low - 2) : Int) := by simp [q, h]
          rw [hq']
          exact hlk.congr fun j hj => by
            have := hg.lt j hj
            rw [sp3, if_neg (by omega)]
    refine ⟨len3, by omega, ?_, ?_, ?_, ?_, ?_, ?_⟩
    · intro j hj
      rw [nd3]
      split
      · rename_i h; rw [h]
      · exact r.node j (by omega)
    · intro j hj
      rw [sp3]
      split
      · rename_i h; subst h; exact ⟨q, rfl, hqb⟩
      · exact r.back j (by omega)
    · intro k p hp
      rw [pileStep_get piles i low hl1 hl2] at hp
      split at hp
      · rename_i hk
        cases hp
        exact ⟨i, _, rfl, by rw [en3, if_pos hk], newGood.2⟩
      · rename_i hk
        obtain ⟨h, t, e, he, hlk⟩ := r.ends k p hp
        have hg := r.good k p hp
        refine ⟨h, t, e, by rw [en3, if_neg hk]; exact he, hlk.congr fun j hj => ?_⟩
        have := hg.lt j hj
        rw [sp3, if_neg (by omega)]
    · intro k p hp
      rw [pileStep_get piles i low hl1 hl2] at hp
      split at hp
      · rename_i hk
        cases hp
        rw [hk]; exact newGood.1
      · have hg := r.good k p hp
        exact ⟨hg.len, fun j hj => by have := hg.lt j hj; omega, hg.desc, hg.acc⟩
    · rw [pileStep_length piles i low hl1 hl2]; split <;> omega
    · intro j hj
      rw [io3]; exact r.fresh j hj
  · simp only [lisLoop, e1, Res.bind_ok, hs', hq, e2, e3]
    have hlen : (if (low : Int) > (piles.length : Int) then (low : Int) else piles.length) =
        ((pileStep piles i low).length : Int) := by
      rw [pileStep_length piles i low hl1 hl2]
      split <;> split <;> omega
    rw [hlen]
    rfl

theorem follows_append_one {β : Type} (R : β → β → Prop) (zs : List β) (y : β) :
    Spec.Follows R (zs ++ [y]) ↔ Spec.Follows R zs ∧ ∀ z, zs.getLast? = some z → R z y := by
  induction zs with
  | nil => simp [Spec.Follows]
  | cons a t ih =>
    cases t with
    | nil => simp [Spec.Follows]
    | cons b t' =>
      have e1 : Spec.Follows R (a :: b :: t' ++ [y]) ↔ R a b ∧ Spec.Follows R (b :: t' ++ [y]) :=
        Iff.rfl
      have e2 : Spec.Follows R (a :: b :: t') ↔ R a b ∧ Spec.Follows R (b :: t') := Iff.rfl
      rw [e1, e2, ih, List.getLast?_cons_cons]
      constructor
      · rintro ⟨h1, h2, h3⟩; exact ⟨⟨h1, h2⟩, h3⟩
      · rintro ⟨⟨h1, h2⟩, h3⟩; exact ⟨h1, h2, h3⟩

/-- The chains stay optimal. -/
theorem Opt.step {R : Nat → Nat → Prop} {i low : Nat} {piles : List (List Nat)}
    (total : ∀ j k, R j k ∨ R k j) (trans : ∀ j k l, R j k → R k l → R j l)
    (o : Opt R i piles) (h1 : 1 ≤ low) (h2 : low ≤ piles.length + 1)
    (hs : ∀ k < piles.length, R (hd piles k) i ↔ k + 1 < low) :
    Opt R (i + 1) (pileStep piles i low) := by
  have hlen := pileStep_length piles i low h1 h2
  have hhd := hd_pileStep piles i low h1 h2
  have refl : ∀ j, R j j := fun j => (total j j).elim id id
  constructor
  · intro k l hkl hl
    rw [hhd, hhd]
    by_cases hk : k = low - 1
    · rw [if_pos hk, if_neg (by omega)]
      have hll : l < piles.length := by
        rw [hlen] at hl; split at hl <;> omega
      have := (not_congr (hs l hll)).2 (by omega)
      exact (total i (hd piles l)).resolve_right this
    · rw [if_neg hk]
      by_cases hl' : l = low - 1
      · rw [if_pos hl']
        exact (hs k (by omega)).2 (by omega)
      · rw [if_neg hl']
        have hll : l < piles.length := by
          rw [hlen] at hl; split at hl <;> omega
        exact o.mono k l hkl hll
  · intro ys hsort hfol hlt z hz
    obtain ⟨zs, rfl⟩ : ∃ zs, ys = zs ++ [z] := by
      obtain ⟨zs, h⟩ := List.getLast?_eq_some_iff.1 hz
      exact ⟨zs, h⟩
    have hzi : z < i + 1 := hlt z (by simp)
    have hzs : ∀ y ∈ zs, y < z := by
      intro y hy
      exact (List.pairwise_append.1 hsort).2.2 y hy z (by simp)
    have hfz := (follows_append_one R zs z).1 hfol
    have hsz := (List.pairwise_append.1 hsort).1
    by_cases hze : z = i
    · subst hze
      -- the chain before the new element
      have key : zs.length < low := by
        cases hzl : zs.getLast? with
        | none => have : zs = [] := by simpa using hzl
                  subst this; simp; omega
        | some w =>
          obtain ⟨hb1, hb2⟩ := o.best zs hsz hfz.1 hzs w hzl
          have hpos : 0 < zs.length := by
            cases zs with
            | nil => simp at hzl
            | cons => simp
          have hw := hfz.2 w hzl
          have := (hs (zs.length - 1) (by omega)).1 (trans _ _ _ hb2 hw)
          omega
      have hL : (zs ++ [z]).length = zs.length + 1 := by simp
      rw [hL, hlen, hhd]
      refine ⟨by split <;> omega, ?_⟩
      split
      · exact refl z
      · exact (hs _ (by omega)).2 (by omega)
    · have hold := o.best (zs ++ [z]) hsort hfol (by
        intro y hy
        rcases List.mem_append.1 hy with hy | hy
        · have := hzs y hy; omega
        · simp at hy; omega) z (by simp)
      rw [hlen, hhd]
      refine ⟨by split <;> omega, ?_⟩
      split
      · rename_i he
        have hk : (zs ++ [z]).length - 1 < piles.length := by
          have : 0 < (zs ++ [z]).length := by simp
          omega
        have := (not_congr (hs _ hk)).2 (by omega)
        exact trans _ _ _ ((total i _).resolve_right this) hold.2
      · exact hold.2

/-- The main loop. -/
theorem loop_ok (cmp : α → α → Res Int) (c : α → α → Int)
    (x : Nat → α) (hc : ∀ j k, cmp (x j) (x k) = .ok (c (x j) (x k))) (cap : Nat)
    (R : Nat → Nat → Prop) (hR : ∀ j k, R j k ↔ 0 ≤ c (x j) (x k)) (d : Nat) :
    ∀ (i : Nat) (a : List (OrderNode α)) (piles : List (List Nat)),
      Rep x R cap i a piles → i + d ≤ cap →
      ∃ a' piles', Rep x R cap (i + d) a' piles' ∧
        (0 < i + d → (0 < i → piles ≠ []) → piles' ≠ []) ∧
        ((∀ j k, R j k ∨ R k j) → (∀ j k l, R j k → R k l → R j l) →
          Opt R i piles → Opt R (i + d) piles') ∧
        lisLoop cmp ((List.range' i d).map x) a (piles.length : Int) (i : Int) =
          .ok (a', (piles'.length : Int)) := by
  induction d with
  | zero =>
    intro i a piles r _
    exact ⟨a, piles, r, fun h h' => h' h, fun _ _ o => o, rfl⟩
  | succ d ih =>
    intro i a piles r hcap
    have hxs : (List.range' i (d + 1)).map x = x i :: (List.range' (i + 1) d).map x := by
      simp [List.range'_succ]
    rw [hxs]
    obtain ⟨low, a1, h1, h2, h3, h4, r1, e1⟩ :=
      step_ok cmp c x hc cap i a piles R hR r (by omega) ((List.range' (i + 1) d).map x)
    obtain ⟨a', piles', r', hne, ho, e'⟩ := ih (i + 1) a1 _ r1 (by omega)
    have hadd : i + (d + 1) = i + 1 + d := by omega
    rw [hadd]
    refine ⟨a', piles', r', fun h _ => hne h fun _ => ?_, fun total trans o => ?_, by rw [e1, e']⟩
    · intro hnil
      have := pileStep_length piles i low h1 h2
      rw [hnil] at this
      simp only [List.length_nil] at this
      split at this <;> omega
    · refine ho total trans (o.step total trans h1 h2 (h4 ?_))
      intro k l hkl hl hr
      exact trans _ _ _ (o.mono k l hkl hl) hr

/-- The marking loop. -/
theorem mark_ok : ∀ (js : List Nat) (fuel : Nat) (a : List (OrderNode α)) (p : Int),
    Linked (sp a) p js → (∀ j ∈ js, j < a.length) → js.length < fuel →
    ∃ a', lisMark fuel a p = .ok a' ∧ a'.length = a.length ∧ (∀ k, nd a' k = nd a k) ∧
      (∀ k, sp a' k = sp a k) ∧
      (∀ k, io a' k = if k ∈ js then some true else io a k) := by
  intro js
  induction js with
  | nil =>
    intro fuel a p hl _ hf
    cases fuel with
    | zero => simp at hf
    | succ fuel =>
      have : p = -1 := hl
      subst this
      exact ⟨a, by simp [lisMark], rfl, fun _ => rfl, fun _ => rfl, fun k => by simp⟩
  | cons j js ih =>
    intro fuel a p hl hlt hf
    cases fuel with
    | zero => simp at hf
    | succ fuel =>
      obtain ⟨hp, q, hq, hl'⟩ := hl
      subst hp
      have hj : j < a.length := hlt j (by simp)
      let a1 := a.set j ({ a[j] with inOrder := true })
      have e1 : arrUpd a (j : Int) (fun n => { n with inOrder := true }) = .ok a1 := arrUpd_ok hj _
      have len1 : a1.length = a.length := by simp [a1]
      have sp1 : ∀ k, sp a1 k = sp a k := by
        intro k
        have := sp_set a j k hj (fun n => { n with inOrder := true })
        rw [show sp a1 k = _ from this]
        split
        · rename_i h; subst h; exact (sp_at a k hj).symm
        · rfl
      have nd1 : ∀ k, nd a1 k = nd a k := by
        intro k
        have := nd_set a j k hj (fun n => { n with inOrder := true })
        rw [show nd a1 k = _ from this]
        split
        · rename_i h; subst h; exact (nd_at a k hj).symm
        · rfl
      have io1 : ∀ k, io a1 k = if k = j then some true else io a k :=
        fun k => io_set a j k hj (fun n => { n with inOrder := true })
      have hq1 : sp a1 j = some q := by rw [sp1]; exact hq
      obtain ⟨hj1, hq2⟩ := sp_get hq1
      obtain ⟨a', e', len', nd', sp', io'⟩ := ih fuel a1 q (hl'.congr fun k _ => sp1 k)
        (fun k hk => by rw [len1]; exact hlt k (by simp [hk])) (by simp at hf; omega)
      refine ⟨a', ?_, by rw [len', len1], fun k => by rw [nd', nd1], fun k => by rw [sp', sp1], ?_⟩
      · unfold lisMark
        rw [if_neg (by omega), e1, Res.bind_ok, arrGet_ok hj1, Res.bind_ok, hq2]
        exact e'
      · intro k
        rw [io', io1]
        by_cases h1 : k = j
        · subst h1; simp
        · by_cases h2 : k ∈ js <;> simp [h1, h2]

/-- The whole computation, for a non-empty sequence. -/
theorem calc_ok (cmp : α → α → Res Int) (c : α → α → Int)
    (x : Nat → α) (hc : ∀ j k, cmp (x j) (x k) = .ok (c (x j) (x k))) (cap n : Nat) (hn : 0 < n) (hcap : n ≤ cap)
    (R : Nat → Nat → Prop) (hR : ∀ j k, R j k ↔ 0 ≤ c (x j) (x k)) :
    ∃ (a : List (OrderNode α)) (js : List Nat),
      calcLis cmp cap ((List.range n).map x) = .ok a ∧ a.length = cap ∧
      (∀ j < n, nd a j = some (some (x j))) ∧
      (∀ j < n, ∃ q, sp a j = some q ∧ -1 ≤ q ∧ q < (j : Int)) ∧
      (∀ j < cap, io a j = some (decide (j ∈ js))) ∧
      js ≠ [] ∧ (∀ j ∈ js, j < n) ∧ js.Pairwise (· > ·) ∧ Spec.Follows (fun a b => R b a) js ∧
      ((∀ j k, R j k ∨ R k j) → (∀ j k l, R j k → R k l → R j l) →
        ∀ ys : List Nat, ys.Pairwise (· < ·) → Spec.Follows R ys → (∀ y ∈ ys, y < n) →
          ys.length ≤ js.length) := by
  have rep0 : Rep x R cap 0 (List.replicate cap (OrderNode.zero : OrderNode α)) [] :=
    ⟨by simp, by omega, by omega, by omega, by simp, by simp, by simp, by
      intro j hj; simp [io, hj, OrderNode.zero]⟩
  have opt0 : Opt R 0 [] := ⟨by simp, by
    intro ys _ _ h z hz
    cases ys with
    | nil => simp at hz
    | cons y ys => have := h y (by simp); omega⟩
  obtain ⟨a, piles, r, hne, ho, e⟩ := loop_ok cmp c x hc cap R hR n 0 _ _ rep0 (by omega)
  simp only [Nat.zero_add] at r hne ho e
  have hne' : piles ≠ [] := hne hn (by omega)
  have hpos : 0 < piles.length := List.length_pos_iff.2 hne'
  obtain ⟨t, hp, hen, hlt, hlk⟩ := r.hd_mem (k := piles.length - 1) (by omega)
  have hg := r.good _ _ hp
  obtain ⟨hk, hek⟩ := en_get hen
  have hlenlt : (hd piles (piles.length - 1) :: t).length ≤ cap := by
    have := hg.len; have := r.pl; omega
  obtain ⟨a', em, len', nd', sp', io'⟩ := mark_ok (hd piles (piles.length - 1) :: t) (cap + 1) a _ hlk
    (fun j hj => by have := hg.lt j hj; rw [r.len]; omega) (by omega)
  refine ⟨a', hd piles (piles.length - 1) :: t, ?_, by rw [len', r.len], ?_, ?_, ?_, by simp,
    hg.lt, hg.desc, hg.acc, ?_⟩
  · have hrange : (List.range n).map x = (List.range' 0 n).map x := by
      rw [List.range_eq_range']
    rw [calcLis, hrange]
    have e0 : lisLoop cmp ((List.range' 0 n).map x) (List.replicate cap OrderNode.zero) 0 0 =
        .ok (a, (piles.length : Int)) := by simpa using e
    rw [e0, Res.bind_ok]
    have hcast : ((piles.length : Int) - 1) = ((piles.length - 1 : Nat) : Int) := by omega
    simp only [hcast, arrGet_ok hk, Res.bind_ok, hek]
    exact em
  · intro j hj; rw [nd']; exact r.node j hj
  · intro j hj; rw [sp']; exact r.back j hj
  · intro j hj
    rw [io', r.fresh j hj]
    split <;> simp_all
  · intro total trans ys hsort hfol hy
    have o := ho total trans opt0
    rw [hg.len]
    cases hz : ys.getLast? with
    | none => have : ys = [] := by simpa using hz
              subst this; simp
    | some z => have := (o.best ys hsort hfol hy z hz).1; omega

end Lis

end Selint
