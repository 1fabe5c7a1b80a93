import Verif.Spec.Memory
import Verif.Model.Free
/-! # Lemmas about structures in memory -/

namespace Selint

open Spec

@[simp] theorem dropped_nil (m : Mem) : dropped m [] = m := by
  simp [dropped]

theorem dropped_obj (m : Mem) (ps : List Addr) (q : Addr) :
    (dropped m ps).obj q = if q ∈ ps then none else m.obj q := rfl

@[simp] theorem dropped_top (m : Mem) (ps : List Addr) : (dropped m ps).top = m.top := rfl

theorem dropped_dropped (m : Mem) (ps qs : List Addr) :
    dropped (dropped m ps) qs = dropped m (ps ++ qs) := by
  simp only [dropped, Mem.mk.injEq, and_true]
  funext q
  grind

theorem dropped_congr (m : Mem) {ps qs : List Addr} (h : ∀ q, q ∈ ps ↔ q ∈ qs) :
    dropped m ps = dropped m qs := by
  simp only [dropped, Mem.mk.injEq, and_true]
  funext q
  simp [h q]

/-- `m'` is `m` on the addresses `ps`. -/
def EqOn (m m' : Mem) (ps : List Addr) : Prop := ∀ q ∈ ps, m'.obj q = m.obj q

theorem EqOn.mono {m m' : Mem} {ps qs : List Addr} (h : EqOn m m' ps) (hs : ∀ q ∈ qs, q ∈ ps) :
    EqOn m m' qs := fun q hq => h q (hs q hq)

theorem eqOn_dropped (m : Mem) {ps qs : List Addr} (h : ∀ q ∈ qs, q ∉ ps) :
    EqOn m (dropped m ps) qs := by
  intro q hq
  simp [dropped_obj, h q hq]

section
open Spec
variable {m m' : Mem}

theorem Spec.StrAt.congr {p s ps} (h : StrAt m p s ps) (he : EqOn m m' ps) : StrAt m' p s ps := by
  cases h with
  | mk h => exact .mk (by rw [he _ (by simp)]; exact h)

theorem Spec.OptStrAt.congr {p s ps} (h : OptStrAt m p s ps) (he : EqOn m m' ps) :
    OptStrAt m' p s ps := by
  cases h with
  | none => exact .none
  | some h => exact .some (by rw [he _ (by simp)]; exact h)

theorem Spec.SlAt.congr {p l ps} (h : SlAt m p l ps) (he : EqOn m m' ps) : SlAt m' p l ps := by
  induction h with
  | nil => exact .nil
  | cons h₁ h₂ _ h₄ h₅ ih =>
    exact .cons (by rw [he _ (by simp)]; exact h₁) (by rw [he _ (by simp)]; exact h₂)
      (ih (he.mono (by grind))) h₄ h₅

theorem Spec.NamesAt.congr {p l ps} (h : NamesAt m p l ps) (he : EqOn m m' ps) :
    NamesAt m' p l ps := SlAt.congr h he

theorem Spec.CtxAt.congr {p l ps} (h : CtxAt m p l ps) (he : EqOn m m' ps) : CtxAt m' p l ps := by
  cases h with
  | none => exact .none
  | some h hg h₁ h₂ h₃ h₄ hn =>
    exact .some (by rw [he _ (by simp)]; exact h) hg (h₁.congr (he.mono (by grind)))
      (h₂.congr (he.mono (by grind))) (h₃.congr (he.mono (by grind)))
      (h₄.congr (he.mono (by grind))) hn

theorem Spec.DeclAt.congr {p l ps} (h : DeclAt m p l ps) (he : EqOn m m' ps) :
    DeclAt m' p l ps := by
  cases h with
  | mk h hg h₁ h₂ hn =>
    exact .mk (by rw [he _ (by simp)]; exact h) hg (h₁.congr (he.mono (by grind)))
      (h₂.congr (he.mono (by grind))) hn

theorem Spec.DataAt.congr {p l ps} (h : DataAt m p l ps) (he : EqOn m m' ps) :
    DataAt m' p l ps := by
  cases h with
  | header h hg h₁ hn =>
    exact .header (by rw [he _ (by simp)]; exact h) hg (h₁.congr (he.mono (by grind))) hn
  | av h hg h₁ h₂ h₃ h₄ hn =>
    exact .av (by rw [he _ (by simp)]; exact h) hg (h₁.congr (he.mono (by grind)))
      (h₂.congr (he.mono (by grind))) (h₃.congr (he.mono (by grind)))
      (h₄.congr (he.mono (by grind))) hn
  | xav h hg h₁ h₂ h₃ h₄ h₅ hn =>
    exact .xav (by rw [he _ (by simp)]; exact h) hg (h₁.congr (he.mono (by grind)))
      (h₂.congr (he.mono (by grind))) (h₃.congr (he.mono (by grind)))
      (h₄.congr (he.mono (by grind))) (h₅.congr (he.mono (by grind))) hn
  | roleAllow h h₁ h₂ hn =>
    exact .roleAllow (by rw [he _ (by simp)]; exact h) (h₁.congr (he.mono (by grind)))
      (h₂.congr (he.mono (by grind))) hn
  | roleTypes h h₁ h₂ hn =>
    exact .roleTypes (by rw [he _ (by simp)]; exact h) (h₁.congr (he.mono (by grind)))
      (h₂.congr (he.mono (by grind))) hn
  | tt h h₁ h₂ h₃ h₄ h₅ hg hn =>
    exact .tt (by rw [he _ (by simp)]; exact h) (h₁.congr (he.mono (by grind)))
      (h₂.congr (he.mono (by grind))) (h₃.congr (he.mono (by grind)))
      (h₄.congr (he.mono (by grind))) (h₅.congr (he.mono (by grind))) hg hn
  | rt h h₁ h₂ h₃ h₄ hn =>
    exact .rt (by rw [he _ (by simp)]; exact h) (h₁.congr (he.mono (by grind)))
      (h₂.congr (he.mono (by grind))) (h₃.congr (he.mono (by grind)))
      (h₄.congr (he.mono (by grind))) hn
  | ifCall h h₁ h₂ hn =>
    exact .ifCall (by rw [he _ (by simp)]; exact h) (h₁.congr (he.mono (by grind)))
      (h₂.congr (he.mono (by grind))) hn
  | decl h => exact .decl (h.congr he)
  | fc h hg h₁ h₂ hn =>
    exact .fc (by rw [he _ (by simp)]; exact h) hg (h₁.congr (he.mono (by grind)))
      (h₂.congr (he.mono (by grind))) hn
  | attr h h₁ h₂ hg hn =>
    exact .attr (by rw [he _ (by simp)]; exact h) (h₁.congr (he.mono (by grind)))
      (h₂.congr (he.mono (by grind))) hg hn
  | genReq h => exact .genReq (by rw [he _ (by simp)]; exact h)
  | plain h => exact .plain (h.congr he)

theorem Spec.NodesAt.congr {u l p ts ps} (h : NodesAt m u l p ts ps) (he : EqOn m m' ps) :
    NodesAt m' u l p ts ps := by
  induction h with
  | nil => exact .nil
  | cons h hu hl hf hno h₁ h₂ _ _ hn ih₃ ih₄ =>
    exact .cons (by rw [he _ (by simp)]; exact h) hu hl hf hno (h₁.congr (he.mono (by grind)))
      (h₂.congr (he.mono (by grind))) (ih₃ (he.mono (by grind))) (ih₄ (he.mono (by grind))) hn

theorem Spec.DeclsAt.congr {p ds ps} (h : DeclsAt m p ds ps) (he : EqOn m m' ps) :
    DeclsAt m' p ds ps := by
  induction h with
  | nil => exact .nil
  | cons h h₁ _ hn ih =>
    exact .cons (by rw [he _ (by simp)]; exact h) (h₁.congr (he.mono (by grind)))
      (ih (he.mono (by grind))) hn

theorem Spec.CallsAt.congr {p cs ps} (h : CallsAt m p cs ps) (he : EqOn m m' ps) :
    CallsAt m' p cs ps := by
  induction h with
  | nil => exact .nil
  | cons h _ hn ih =>
    exact .cons (by rw [he _ (by simp)]; exact h) (ih (he.mono (by grind))) hn

theorem Spec.FilesAt.congr {p l fs ps} (h : FilesAt m p l fs ps) (he : EqOn m m' ps) :
    FilesAt m' p l fs ps := by
  induction h with
  | nil => exact .nil
  | cons h h₁ h₂ h₃ _ hn ih =>
    exact .cons (by rw [he _ (by simp)]; exact h) (by rw [he _ (by simp)]; exact h₁)
      (h₂.congr (he.mono (by grind))) (h₃.congr (he.mono (by grind)))
      (ih (he.mono (by grind))) hn

end

/-! ## What is owned is allocated -/

/-- All of `ps` is allocated. -/
def Live (m : Mem) (ps : List Addr) : Prop := ∀ q ∈ ps, m.obj q ≠ none

theorem Spec.StrAt.live {m p s ps} (h : StrAt m p s ps) : Live m ps := by
  cases h with
  | mk h => intro q; grind

theorem Spec.OptStrAt.live {m p s ps} (h : OptStrAt m p s ps) : Live m ps := by
  cases h with
  | none => intro q; grind
  | some h => intro q; grind

theorem Spec.SlAt.live {m p s ps} (h : SlAt m p s ps) : Live m ps := by
  induction h with
  | nil => intro q; grind
  | cons _ _ _ _ _ ih => intro q hq; have := ih q; grind

theorem Live.append {m : Mem} {ps qs : List Addr} (h₁ : Live m ps) (h₂ : Live m qs) :
    Live m (ps ++ qs) := fun q hq => (List.mem_append.1 hq).elim (h₁ q) (h₂ q)

theorem live_one {m : Mem} {p : Addr} {o : Obj} (h : m.obj p = some o) : Live m [p] := by
  intro q hq
  simp only [List.mem_singleton] at hq
  simp [hq, h]

theorem Spec.NamesAt.live {m p s ps} (h : NamesAt m p s ps) : Live m ps := SlAt.live h

theorem Spec.CtxAt.live {m p s ps} (h : CtxAt m p s ps) : Live m ps := by
  cases h with
  | none => intro q; grind
  | some h hg h₁ h₂ h₃ h₄ hn =>
    exact (((h₁.live.append h₂.live).append h₃.live).append h₄.live).append (live_one h)

theorem Spec.DeclAt.live {m p s ps} (h : DeclAt m p s ps) : Live m ps := by
  cases h with
  | mk h hg h₁ h₂ hn => exact (h₁.live.append h₂.live).append (live_one h)

theorem Spec.DataAt.live {m p s ps} (h : DataAt m p s ps) : Live m ps := by
  cases h with
  | header h hg h₁ hn => exact h₁.live.append (live_one h)
  | av h hg h₁ h₂ h₃ h₄ hn =>
    exact (((h₁.live.append h₂.live).append h₃.live).append h₄.live).append (live_one h)
  | xav h hg h₁ h₂ h₃ h₄ h₅ hn =>
    exact ((((h₁.live.append h₂.live).append h₃.live).append h₄.live).append h₅.live).append
      (live_one h)
  | roleAllow h h₁ h₂ hn => exact (h₁.live.append h₂.live).append (live_one h)
  | roleTypes h h₁ h₂ hn => exact (h₁.live.append h₂.live).append (live_one h)
  | tt h h₁ h₂ h₃ h₄ h₅ hg hn =>
    exact ((((h₁.live.append h₂.live).append h₃.live).append h₄.live).append h₅.live).append
      (live_one h)
  | rt h h₁ h₂ h₃ h₄ hn =>
    exact (((h₁.live.append h₂.live).append h₃.live).append h₄.live).append (live_one h)
  | ifCall h h₁ h₂ hn => exact (h₁.live.append h₂.live).append (live_one h)
  | decl h => exact h.live
  | fc h hg h₁ h₂ hn => exact (h₁.live.append h₂.live).append (live_one h)
  | attr h h₁ h₂ hg hn => exact (h₁.live.append h₂.live).append (live_one h)
  | genReq h => exact live_one h
  | plain h => exact h.live

theorem Spec.NodesAt.live {m u l p ts ps} (h : NodesAt m u l p ts ps) : Live m ps := by
  induction h with
  | nil => intro q; grind
  | cons h hu hl hf hno h₁ h₂ _ _ hn ih₃ ih₄ =>
    exact (((h₁.live.append h₂.live).append ih₃).append ih₄).append (live_one h)

theorem Spec.NodesAt.nodup {m u l p ts ps} (h : NodesAt m u l p ts ps) : ps.Nodup := by
  cases h with
  | nil => simp
  | cons h hu hl hf hno h₁ h₂ _ _ hn => exact hn

theorem Spec.FilesAt.live {m p l fs ps} (h : FilesAt m p l fs ps) : Live m ps := by
  induction h with
  | nil => intro q; grind
  | @cons p f n last d name ts fs p₁ p₂ p₃ h h₁ h₂ h₃ _ hn ih =>
    have : Live m [f, p] := (live_one h₁).append (live_one h)
    exact ((h₂.live.append h₃.live).append this).append ih

theorem Spec.SlAt.nodup {m p s ps} (h : SlAt m p s ps) : ps.Nodup := by
  induction h with
  | nil => simp
  | cons h₁ h₂ _ _ _ ih => grind

theorem Spec.SlAt.fun {m p s ps s' ps'} (h : SlAt m p s ps) (h' : SlAt m p s' ps') :
    s = s' ∧ ps = ps' := by
  induction h generalizing s' ps' with
  | nil => cases h'; simp
  | cons h₁ h₂ _ _ _ ih =>
    cases h' with
    | cons h₁' h₂' h₃' _ _ =>
      rw [h₁] at h₁'
      simp only [Option.some.injEq, Obj.sl.injEq, SlCell.mk.injEq] at h₁'
      obtain ⟨rfl, rfl, rfl⟩ := h₁'
      rw [h₂] at h₂'
      simp only [Option.some.injEq, Obj.bytes.injEq] at h₂'
      subst h₂'
      obtain ⟨rfl, rfl⟩ := ih h₃'
      simp

/-! ## Freeing -/

theorem free_ok {m : Mem} {p : Addr} (h : m.obj p ≠ none) :
    m.free (some p) = .ok (dropped m [p]) := by
  simp only [Mem.free, dropped, List.mem_singleton]
  split
  · rename_i h'; exact absurd h' h
  · rfl

theorem free_str {m p s ps} (h : StrAt m p s ps) : m.free p = .ok (dropped m ps) := by
  have := h.live
  cases h with
  | mk h => exact free_ok (this _ (by simp))

theorem free_optStr {m p s ps} (h : OptStrAt m p s ps) : m.free p = .ok (dropped m ps) := by
  have := h.live
  cases h with
  | none => simp [Mem.free]
  | some h => exact free_ok (this _ (by simp))

theorem get_eq {α : Type} {m : Mem} {f : Obj → Option α} {p : Addr} {o : Obj} {a : α}
    (h : m.obj p = some o) (hf : f o = some a) : m.get f p = .ok a := by
  simp [Mem.get, h, hf]

theorem freeStringList_eqOn {m p l ps} (h : SlAt m p l ps) :
    ∀ {m'}, EqOn m m' ps → ∀ {fuel}, l.length ≤ fuel →
      Mem.freeStringList fuel m' p = .ok (dropped m' ps) := by
  induction h with
  | nil => intro m' _ fuel _; cases fuel <;> simp [Mem.freeStringList]
  | @cons p a n s b l ps h₁ h₂ h₃ h₄ h₅ ih =>
    intro m' he fuel hf
    obtain _ | fuel := fuel
    · simp at hf
    simp only [List.length_cons, Nat.add_le_add_iff_right] at hf
    have hpa : p ≠ a := by rintro rfl; simp [h₁] at h₂
    rw [← he p (by simp)] at h₁
    rw [← he a (by simp)] at h₂
    have e₁ : m'.free (some a) = .ok (dropped m' [a]) := free_ok (by simp [h₂])
    have e₂ : (dropped m' [a]).free (some p) = .ok (dropped (dropped m' [a]) [p]) :=
      free_ok (by simp [dropped_obj, hpa, h₁])
    simp only [Mem.freeStringList, get_eq h₁ (f := Obj.sl?) rfl, Res.bind_ok, e₁, e₂]
    rw [dropped_dropped, ih _ hf, dropped_dropped]
    · exact congrArg Res.ok (dropped_congr _ (by grind))
    · intro q hq
      rw [eqOn_dropped m' (qs := ps) (by grind) q hq]
      exact he q (by simp [hq])

theorem freeStringList_eq {m p l ps} (h : SlAt m p l ps) {fuel} (hf : l.length ≤ fuel) :
    Mem.freeStringList fuel m p = .ok (dropped m ps) :=
  freeStringList_eqOn h (fun _ _ => rfl) hf

theorem Spec.SlAt.length_le {m p l ps} (h : SlAt m p l ps) : l.length ≤ ps.length := by
  induction h with
  | nil => simp
  | cons _ _ _ _ _ ih => simp; omega

theorem step_sl {m p l ps} (h : SlAt m p l ps) {ds : List Addr} (hd : (ds ++ ps).Nodup)
    {fuel : Nat} (hf : ps.length ≤ fuel) :
    Mem.freeStringList fuel (dropped m ds) p = .ok (dropped m (ds ++ ps)) := by
  rw [freeStringList_eqOn h (eqOn_dropped m (by grind)) (Nat.le_trans h.length_le hf),
    dropped_dropped]

theorem step_names {m p l ps} (h : NamesAt m p l ps) {ds : List Addr} (hd : (ds ++ ps).Nodup)
    {fuel : Nat} (hf : ps.length ≤ fuel) :
    Mem.freeStringList fuel (dropped m ds) p = .ok (dropped m (ds ++ ps)) :=
  step_sl h hd hf

theorem step_str {m p s ps} (h : StrAt m p s ps) {ds : List Addr} (hd : (ds ++ ps).Nodup) :
    (dropped m ds).free p = .ok (dropped m (ds ++ ps)) := by
  rw [free_str (h.congr (eqOn_dropped m (by grind))), dropped_dropped]

theorem step_opt {m p s ps} (h : OptStrAt m p s ps) {ds : List Addr} (hd : (ds ++ ps).Nodup) :
    (dropped m ds).free p = .ok (dropped m (ds ++ ps)) := by
  rw [free_optStr (h.congr (eqOn_dropped m (by grind))), dropped_dropped]

theorem step_one {m : Mem} {p : Addr} (h : m.obj p ≠ none) {ds : List Addr}
    (hd : (ds ++ [p]).Nodup) :
    (dropped m ds).free (some p) = .ok (dropped m (ds ++ [p])) := by
  rw [free_ok, dropped_dropped]
  have : p ∉ ds := by grind
  simpa [dropped_obj, this] using h

theorem first_sl {m p l ps} (h : SlAt m p l ps) {fuel : Nat} (hf : ps.length ≤ fuel) :
    Mem.freeStringList fuel m p = .ok (dropped m ps) :=
  freeStringList_eq h (Nat.le_trans h.length_le hf)

theorem first_names {m p l ps} (h : NamesAt m p l ps) {fuel : Nat} (hf : ps.length ≤ fuel) :
    Mem.freeStringList fuel m p = .ok (dropped m ps) := first_sl h hf

theorem freeDeclarationData_eq {m p d ps} (h : DeclAt m p d ps) {fuel : Nat}
    (hf : ps.length ≤ fuel) : Mem.freeDeclarationData fuel m p = .ok (dropped m ps) := by
  cases h with
  | mk h hg h₁ h₂ hn =>
    simp only [List.length_append] at hf
    rw [Mem.freeDeclarationData, get_eq h (f := Obj.decl?) rfl, Res.bind_ok,
      first_names h₁ (by omega), Res.bind_ok, step_str h₂ (by grind), Res.bind_ok,
      step_one (by simp [h]) (by grind)]

theorem freeContext_eq {m p d ps} (h : CtxAt m (some p) d ps) :
    Mem.freeSelContext m p = .ok (dropped m ps) := by
  cases h with
  | some h hg h₁ h₂ h₃ h₄ hn =>
    rw [Mem.freeSelContext, get_eq h (f := Obj.ctx?) rfl, Res.bind_ok,
      free_str h₁, Res.bind_ok, step_str h₂ (by grind), Res.bind_ok,
      step_str h₃ (by grind), Res.bind_ok, step_opt h₄ (by grind), Res.bind_ok,
      step_one (by simp [h]) (by grind)]

theorem freeNodeData_eq {m p d ps} (h : DataAt m p d ps) {fuel : Nat}
    (hf : ps.length ≤ fuel) :
    Mem.freeNodeData fuel m d.flavor p = .ok (dropped m ps) := by
  cases h with
  | header h hg h₁ hn =>
    simp only [Mem.freeNodeData, NodeData.flavor]
    rw [Mem.freeHeaderData, get_eq h (f := Obj.header?) rfl, Res.bind_ok, free_str h₁,
      Res.bind_ok, step_one (by simp [h]) (by grind)]
  | av h hg h₁ h₂ h₃ h₄ hn =>
    simp only [List.length_append] at hf
    simp only [Mem.freeNodeData, NodeData.flavor]
    rw [Mem.freeAvRuleData, get_eq h (f := Obj.av?) rfl, Res.bind_ok,
      first_names h₁ (by omega), Res.bind_ok, step_names h₂ (by grind) (by omega), Res.bind_ok,
      step_names h₃ (by grind) (by omega), Res.bind_ok, step_names h₄ (by grind) (by omega),
      Res.bind_ok, step_one (by simp [h]) (by grind)]
  | xav h hg h₁ h₂ h₃ h₄ h₅ hn =>
    simp only [List.length_append] at hf
    simp only [Mem.freeNodeData, NodeData.flavor]
    rw [Mem.freeXavRuleData, get_eq h (f := Obj.xav?) rfl, Res.bind_ok,
      first_names h₁ (by omega), Res.bind_ok, step_names h₂ (by grind) (by omega), Res.bind_ok,
      step_names h₃ (by grind) (by omega), Res.bind_ok, step_str h₄ (by grind),
      Res.bind_ok, step_names h₅ (by grind) (by omega), Res.bind_ok,
      step_one (by simp [h]) (by grind)]
  | roleAllow h h₁ h₂ hn =>
    simp only [List.length_append] at hf
    simp only [Mem.freeNodeData, NodeData.flavor]
    rw [Mem.freeRaData, get_eq h (f := Obj.ra?) rfl, Res.bind_ok,
      first_names h₁ (by omega), Res.bind_ok, step_names h₂ (by grind) (by omega), Res.bind_ok,
      step_one (by simp [h]) (by grind)]
  | roleTypes h h₁ h₂ hn =>
    simp only [List.length_append] at hf
    simp only [Mem.freeNodeData, NodeData.flavor]
    rw [Mem.freeRtypData, get_eq h (f := Obj.rtyp?) rfl, Res.bind_ok,
      free_str h₁, Res.bind_ok, step_names h₂ (by grind) (by omega), Res.bind_ok,
      step_one (by simp [h]) (by grind)]
  | tt h h₁ h₂ h₃ h₄ h₅ hg hn =>
    simp only [List.length_append] at hf
    simp only [Mem.freeNodeData, NodeData.flavor]
    rw [Mem.freeTypeTransitionData, get_eq h (f := Obj.tt?) rfl, Res.bind_ok,
      first_names h₁ (by omega), Res.bind_ok, step_names h₂ (by grind) (by omega), Res.bind_ok,
      step_names h₃ (by grind) (by omega), Res.bind_ok, step_str h₄ (by grind),
      Res.bind_ok, step_opt h₅ (by grind), Res.bind_ok,
      step_one (by simp [h]) (by grind)]
  | rt h h₁ h₂ h₃ h₄ hn =>
    simp only [List.length_append] at hf
    simp only [Mem.freeNodeData, NodeData.flavor]
    rw [Mem.freeRoleTransitionData, get_eq h (f := Obj.rt?) rfl, Res.bind_ok,
      first_names h₁ (by omega), Res.bind_ok, step_names h₂ (by grind) (by omega), Res.bind_ok,
      step_names h₃ (by grind) (by omega), Res.bind_ok, step_str h₄ (by grind),
      Res.bind_ok, step_one (by simp [h]) (by grind)]
  | ifCall h h₁ h₂ hn =>
    simp only [List.length_append] at hf
    simp only [Mem.freeNodeData, NodeData.flavor]
    rw [Mem.freeIfCallData, get_eq h (f := Obj.call?) rfl, Res.bind_ok,
      free_str h₁, Res.bind_ok, step_sl h₂ (by grind) (by omega), Res.bind_ok,
      step_one (by simp [h]) (by grind)]
  | decl h => exact freeDeclarationData_eq h hf
  | @fc p d path c ctx p₁ p₂ h hg h₁ h₂ hn =>
    simp only [Mem.freeNodeData, NodeData.flavor]
    have hc : Mem.freeContextIf (dropped m p₁) d.context = .ok (dropped m (p₁ ++ p₂)) := by
      cases hd : d.context with
      | none => rw [hd] at h₂; cases h₂; simp [Mem.freeContextIf]
      | some q =>
        rw [hd] at h₂
        have h₂' := h₂.congr (eqOn_dropped m (ps := p₁) (by grind))
        simp only [Mem.freeContextIf, freeContext_eq h₂', dropped_dropped]
    rw [Mem.freeFcEntry, get_eq h (f := Obj.fc?) rfl, Res.bind_ok,
      free_str h₁, Res.bind_ok, hc, Res.bind_ok, step_one (by simp [h]) (by grind)]
  | @attr p d type attrs fl p₁ p₂ h h₁ h₂ hg hn =>
    simp only [List.length_append] at hf
    have : Mem.freeNodeData fuel m (NodeData.attr ⟨type, attrs, fl⟩).flavor (some p) =
        Mem.freeAttributeData fuel m (some p) := by
      cases fl <;> rfl
    rw [this, Mem.freeAttributeData, get_eq h (f := Obj.attr?) rfl, Res.bind_ok,
      free_str h₁, Res.bind_ok, step_names h₂ (by grind) (by omega), Res.bind_ok,
      step_one (by simp [h]) (by grind)]
  | genReq h => exact free_ok (by simp [h])
  | @plain p f s ps h =>
    have : Mem.freeNodeData fuel m (NodeData.plain f s).flavor p = m.free p := by
      cases f <;> rfl
    rw [this, free_optStr h]

theorem freePolicyNode_eqOn {m u l p ts ps} (h : NodesAt m u l p ts ps) :
    ∀ {m'}, EqOn m m' ps → ∀ {fuel}, ps.length ≤ fuel →
      Mem.freePolicyNode fuel m' p = .ok (dropped m' ps) := by
  induction h with
  | nil => intro m' _ fuel _; cases fuel <;> simp [Mem.freePolicyNode]
  | @cons up left p n i ts rest p₁ p₂ p₃ p₄ h hu hl hfl hno h₁ h₂ h₃ h₄ hn ih₃ ih₄ =>
    intro m' he fuel hf
    simp only [List.length_append, List.length_singleton] at hf
    obtain _ | fuel := fuel
    · omega
    have hp : m'.obj p = some (.node n) := by rw [he _ (by simp)]; exact h
    have h₁' : DataAt m' n.data i.data p₁ := h₁.congr (he.mono (by grind))
    have h₂' : OptStrAt m' n.exceptions i.exceptions p₂ := h₂.congr (he.mono (by grind))
    have e₃ : Mem.freePolicyNode fuel (dropped m' (p₁ ++ p₂)) n.firstChild =
        .ok (dropped m' (p₁ ++ p₂ ++ p₃)) := by
      rw [ih₃ _ (by omega), dropped_dropped]
      intro q hq
      rw [eqOn_dropped m' (qs := p₃) (by grind) q hq]
      exact he q (by simp [hq])
    have e₄ : Mem.freePolicyNode fuel (dropped m' (p₁ ++ p₂ ++ p₃)) n.next =
        .ok (dropped m' (p₁ ++ p₂ ++ p₃ ++ p₄)) := by
      rw [ih₄ _ (by omega), dropped_dropped]
      intro q hq
      rw [eqOn_dropped m' (qs := p₄) (by grind) q hq]
      exact he q (by simp [hq])
    rw [Mem.freePolicyNode, get_eq hp (f := Obj.node?) rfl, Res.bind_ok, hfl,
      freeNodeData_eq h₁' (by omega), Res.bind_ok, step_opt h₂' (by grind), Res.bind_ok, e₃,
      Res.bind_ok, e₄, Res.bind_ok, step_one (by simp [hp]) (by grind)]

theorem freeDeclList_eqOn {m p ds ps} (h : DeclsAt m p ds ps) :
    ∀ {m'}, EqOn m m' ps → ∀ {fuel}, ps.length ≤ fuel →
      Mem.freeDeclList fuel m' p = .ok (dropped m' ps) := by
  induction h with
  | nil => intro m' _ fuel _; cases fuel <;> simp [Mem.freeDeclList]
  | @cons p c d ds p₁ p₂ h h₁ h₂ hn ih =>
    intro m' he fuel hf
    simp only [List.length_append, List.length_singleton] at hf
    obtain _ | fuel := fuel
    · omega
    have hp : m'.obj p = some (.cell c) := by rw [he _ (by simp)]; exact h
    have hp' : (dropped m' p₁).obj p = some (.cell c) := by
      rw [eqOn_dropped m' (qs := [p]) (by grind) p (by simp), hp]
    have h₁' : DeclAt m' c.elem d p₁ := h₁.congr (he.mono (by grind))
    have e₂ : Mem.freeDeclList fuel (dropped m' (p₁ ++ [p])) c.next =
        .ok (dropped m' (p₁ ++ [p] ++ p₂)) := by
      rw [ih _ (by omega), dropped_dropped]
      intro q hq
      rw [eqOn_dropped m' (qs := p₂) (by grind) q hq]
      exact he q (by simp [hq])
    rw [Mem.freeDeclList, get_eq hp (f := Obj.cell?) rfl, Res.bind_ok,
      freeDeclarationData_eq h₁' (by omega), Res.bind_ok, get_eq hp' (f := Obj.cell?) rfl,
      Res.bind_ok, step_one (by simp [hp]) (by grind), Res.bind_ok, e₂]

theorem freeIfCallList_eqOn {m p cs ps} (h : CallsAt m p cs ps) :
    ∀ {m'}, EqOn m m' ps → ∀ {fuel}, ps.length ≤ fuel →
      Mem.freeIfCallList fuel m' p = .ok (dropped m' ps) := by
  induction h with
  | nil => intro m' _ fuel _; cases fuel <;> simp [Mem.freeIfCallList]
  | @cons p c n cs ps h h₂ hn ih =>
    intro m' he fuel hf
    simp only [List.length_cons] at hf
    obtain _ | fuel := fuel
    · omega
    have hp : m'.obj p = some (.cell ⟨some c, n⟩) := by rw [he _ (by simp)]; exact h
    have e₂ : Mem.freeIfCallList fuel (dropped m' [p]) n = .ok (dropped m' (p :: ps)) := by
      rw [ih _ (by omega), dropped_dropped]
      · rfl
      intro q hq
      rw [eqOn_dropped m' (qs := ps) (by grind) q hq]
      exact he q (by simp [hq])
    rw [Mem.freeIfCallList, get_eq hp (f := Obj.cell?) rfl, Res.bind_ok, free_ok (by simp [hp]),
      Res.bind_ok, e₂]

theorem freeFileLoop_eqOn {m p l fs ps} (h : FilesAt m p l fs ps) :
    ∀ {m'}, EqOn m m' ps → ∀ {fuel}, ps.length ≤ fuel →
      Mem.freeFileLoop fuel m' p = .ok (dropped m' ps) := by
  induction h with
  | nil => intro m' _ fuel _; cases fuel <;> simp [Mem.freeFileLoop]
  | @cons p f n last d name ts fs p₁ p₂ p₃ h h₁ h₂ h₃ h₄ hn ih =>
    intro m' he fuel hf
    simp only [List.length_append, List.length_cons, List.length_nil] at hf
    obtain _ | fuel := fuel
    · omega
    have hp : m'.obj p = some (.cell ⟨some f, n⟩) := by rw [he _ (by simp)]; exact h
    have hf' : m'.obj f = some (.file d) := by rw [he _ (by simp)]; exact h₁
    have h₂' : StrAt m' d.filename name p₁ := h₂.congr (he.mono (by grind))
    have e₂ : Mem.freePolicyNode fuel (dropped m' p₁) d.ast = .ok (dropped m' (p₁ ++ p₂)) := by
      rw [freePolicyNode_eqOn h₃ _ (by omega), dropped_dropped]
      intro q hq
      rw [eqOn_dropped m' (qs := p₂) (by grind) q hq]
      exact he q (by simp [hq])
    have e₃ : Mem.freeFileLoop fuel (dropped m' (p₁ ++ p₂ ++ [f, p])) n =
        .ok (dropped m' (p₁ ++ p₂ ++ [f, p] ++ p₃)) := by
      rw [ih _ (by omega), dropped_dropped]
      intro q hq
      rw [eqOn_dropped m' (qs := p₃) (by grind) q hq]
      exact he q (by simp [hq])
    have e : p₁ ++ p₂ ++ [f, p] = p₁ ++ p₂ ++ [f] ++ [p] := by simp
    rw [Mem.freeFileLoop, get_eq hp (f := Obj.cell?) rfl, Res.bind_ok, Mem.getAt,
      get_eq hf' (f := Obj.file?) rfl, Res.bind_ok, free_str h₂', Res.bind_ok, e₂, Res.bind_ok,
      step_one (by simp [hf']) (by grind), Res.bind_ok, step_one (by simp [hp]) (by grind),
      Res.bind_ok, ← e, e₃]

end Selint
