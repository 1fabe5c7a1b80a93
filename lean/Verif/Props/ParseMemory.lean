import Verif.Lemmas.ParsingRuns
import Verif.Props.Freeing
import Verif.Props.PermMacro
/-!
# C85: what parsing a file leaves in memory
-/

namespace Selint
open Spec

theorem HeldAt.lists {m} : ∀ {ls : List (Option Addr × List Str)} {ps},
    HeldAt m (ls.map fun e => .names e.1 e.2) ps → ListsAt m ls ps
  | [], _, h => by cases h; exact .nil
  | (p, l) :: ls, _, h => by
    cases h with
    | cons h h' => exact .cons h (HeldAt.lists h')

theorem endsWith_perms (s : Str) : endsWith s cs!"_perms" = cs!"_perms".isSuffixOf s := by
  rw [Bool.eq_iff_iff, endsWith_iff, List.isSuffixOf_iff_suffix]

/-- The end of a file: everything the invariant says of memory that began as `m₀`. -/
theorem Inv.parsed {f : SourceFile} {maps : Maps} {m₀ : Mem} {ast : Addr} {ms : MState}
    {st : PState} {t : Sptables} {P₀ : Assoc (List Str)} {k n : Nat} (hb : Bounded m₀)
    (h : SptInv ast m₀ (List.range m₀.top) P₀ ms st t k n)
    (hP₀ : ∀ cs d ds, f = .spt cs d ds → P₀ = maps.permmacros)
    (hk : k = disablings f.tokens) (hn : n = permissionLists f) :
    ∃ T L G, Parsed f maps m₀ st ast ms t T L G := by
  obtain ⟨⟨K, F, ⟨⟨T, L, hs, hT, hL, hH, ho, hkk⟩, hfr, h₁, h₂, h₃⟩, hP, hK, hF, hnn⟩⟩ := h
  obtain ⟨⟨focus, lefts, rights, ups⟩, mp, md, rt⟩ := st
  simp only at hT hkk h₁ h₂ h₃ hP
  have hnd : T.Nodup := by
    have := ho.nodup
    simp only [List.nodup_append] at this
    exact this.1.1.1
  obtain ⟨rs, hrs, hperm⟩ := CurAt.forest _ hT hnd
  have hlists : ListsAt ms.mem (K.map (·.2) ++ F) hs := by
    refine HeldAt.lists ?_
    rw [List.map_append, List.map_map]
    exact hH
  have hnd' : (rs ++ L ++ hs ++ List.range m₀.top).Nodup := by
    refine List.Perm.nodup ?_ ho.nodup
    exact ((hperm.symm.append_right L).append_right hs).append_right _
  refine ⟨rs, L, hs, ⟨hrs, hL, ?_, ⟨K, F, hlists, ?_, hK, hF, ?_⟩, ⟨?_, ?_, ?_⟩, h₁, h₂, h₃⟩⟩
  · rw [exceptionsBelow_unzip, ← hk, ← hkk]
    omega
  · intro cs d ds e
    rw [h₁, hP, hP₀ cs d ds e]
  · omega
  · exact (List.nodup_append.1 hnd').1
  · intro q hq
    constructor
    · refine hb q ?_
      have := (List.nodup_append.1 hnd').2.2 q hq
      simp only [List.mem_range] at this
      exact Nat.le_of_not_lt fun hlt => this q hlt rfl
    · have hl : Live ms.mem L := fun q hq => by
        obtain ⟨s, hs⟩ := hL q hq
        simp [hs]
      exact ((hrs.live.append hl).append hlists.live) q hq
  · intro q hq
    by_cases hlt : q < m₀.top
    · exact hfr q (List.mem_range.2 hlt)
    · rw [hb q (Nat.le_of_not_lt hlt)]
      refine ho.only q ?_
      simp only [List.mem_append, List.mem_range, not_or, hperm.mem_iff] at hq ⊢
      exact ⟨hq, hlt⟩

/-- The beginning of a file. -/
theorem Inv.init {m₀ : Mem} (hb : Bounded m₀) (expected : PlainFlavor) (mod : Str) (maps : Maps) :
    Inv m₀.top m₀ (List.range m₀.top)
      (MState.init m₀ (NodeData.plain expected none).flavor mod maps)
      (PState.init expected mod maps) [] 0 := by
  have ho : Owns m₀ (List.range m₀.top) :=
    ⟨List.nodup_range, fun q hq => List.mem_range.1 hq,
      fun q hq => hb q (Nat.le_of_not_lt fun h => hq (List.mem_range.2 h))⟩
  refine ⟨⟨[m₀.top], [], [], ?_, fun q hq => by simp at hq, .nil, ?_, rfl⟩, ?_, rfl, rfl, rfl⟩
  · refine .mk (p₁ := []) (p₂ := []) (p₃ := []) (p₄ := []) (p₅ := [])
      (n := ⟨none, none, none, none, (NodeData.plain expected none).flavor, none, none, 0⟩)
      ?_ rfl rfl rfl (.plain .none) .none .nil .nil .nil
    simp [MState.init, malloc_obj]
  · exact (ho.malloc _).perm (by simp)
  · exact eqOn_malloc ho _

theorem SptInv.start {root m₀ R ms st k} (h : Inv root m₀ R ms st [] k) :
    SptInv root m₀ R st.maps.permmacros ms st ⟨[], []⟩ k 0 :=
  ⟨⟨[], [], h, by simp, rfl, rfl, rfl⟩⟩

theorem execComments_maps (ns : List Nat) : ∀ st : PState,
    (execComments ns st).maps = st.maps := by
  induction ns with
  | nil => intro st; rfl
  | cons n ns ih =>
    intro st
    exact (ih _).trans rfl

/-- A file that the functional model accepts is parsed without undefined behaviour. -/
theorem C85_parse {f : SourceFile} {expected : PlainFlavor} {mod : Str} {maps : Maps}
    {st : PState} (h : f.exec expected mod maps = .ok (some st)) {m₀ : Mem} (hb : Bounded m₀) :
    ∃ ast ms t T L G, f.run expected mod maps m₀ = .ok (ast, ms, t) ∧
      Parsed f maps m₀ st ast ms t T L G := by
  have h₀ := Inv.init hb expected mod maps
  have key : ∀ {ms t P₀ k n}, SptInv m₀.top m₀ (List.range m₀.top) P₀ ms st t k n →
      (∀ cs d ds, f = .spt cs d ds → P₀ = maps.permmacros) → k = disablings f.tokens →
      n = permissionLists f → f.run expected mod maps m₀ = .ok (m₀.top, ms, t) →
      ∃ ast ms t T L G, f.run expected mod maps m₀ = .ok (ast, ms, t) ∧
        Parsed f maps m₀ st ast ms t T L G := by
    intro ms t P₀ k n hi hP hk hn hr
    obtain ⟨T, L, G, hp⟩ := Inv.parsed hb hi hP hk hn
    exact ⟨_, ms, t, T, L, G, hr, hp⟩
  cases f with
  | empty =>
    cases h
    have h₀ := Inv.init hb .empty mod maps
    refine key (P₀ := maps.permmacros) (SptInv.start h₀) (by simp) rfl rfl ?_
    simp only [SourceFile.run, MState.init, Mem.get, Mem.write, malloc_obj, malloc_fst, if_true,
      Obj.node?, Res.bind_ok]
    refine congrArg Res.ok (congrArg (Prod.mk _) (congrArg (·, _) ?_))
    simp only [Mem.malloc, MState.mk.injEq, Mem.mk.injEq, and_true]
    funext q
    by_cases hq : q = m₀.top <;> simp [hq] <;> rfl
  | te cs hd b =>
    simp only [SourceFile.exec] at h
    split at h
    · cases h
    obtain ⟨st₁, hst, h⟩ := Res.bind_eq_ok h
    cases h
    obtain ⟨ms₁, e₁, h₁⟩ := comments_keep cs h₀
    obtain ⟨ms₂, e₂, h₂⟩ := hd.keeps h₁
    obtain ⟨ms₃, e₃, h₃⟩ := b.keeps h₂ hst
    exact key (.start h₃) (by simp) (by simp [SourceFile.tokens, disablings_comments]) rfl
      (by simp only [SourceFile.run, e₁, e₂, e₃, Res.bind_ok]; rfl)
  | iface cs d ls =>
    simp only [SourceFile.exec] at h
    split at h
    · cases h
    obtain ⟨st₁, hst₁, h⟩ := Res.bind_eq_ok h
    obtain ⟨st₂, hst₂, h⟩ := Res.bind_eq_ok h
    cases h
    obtain ⟨ms₁, e₁, h₁⟩ := comments_keep cs h₀
    obtain ⟨ms₂, e₂, h₂⟩ := d.keeps h₁ hst₁
    obtain ⟨ms₃, e₃, h₃⟩ := ifLines_keeps ls h₂ hst₂
    exact key (.start h₃) (by simp) (by simp [SourceFile.tokens, disablings_comments]) rfl
      (by simp only [SourceFile.run, e₁, e₂, e₃, Res.bind_ok]; rfl)
  | spt cs d ls =>
    simp only [SourceFile.exec] at h
    split at h
    · cases h
    cases h
    obtain ⟨ms₁, e₁, h₁⟩ := comments_keep cs h₀
    obtain ⟨ms₂, t₂, e₂, h₂⟩ := d.keeps (.start h₁)
    obtain ⟨ms₃, t₃, e₃, h₃⟩ := sptLines_keep ls h₂
    refine key h₃ (fun _ _ _ _ => by rw [execComments_maps]; rfl) ?_ ?_
      (by simp only [SourceFile.run, e₁, e₂, e₃, Res.bind_ok]; rfl)
    · simp [SourceFile.tokens, disablings_comments]
      exact (disablings_flatMap (fun x => by cases x <;> simp) ls).symm
    · simp only [permissionLists, List.countP_cons, Option.any_some, endsWith_perms]
      exact Nat.add_comm _ _ |>.trans (congrArg _ (Nat.zero_add _))
  | av cs d ls =>
    simp only [SourceFile.exec] at h
    split at h
    · cases h
    cases h
    obtain ⟨ms₁, e₁, h₁⟩ := comments_keep cs h₀
    obtain ⟨ms₂, e₂, h₂⟩ := d.keeps h₁
    obtain ⟨ms₃, e₃, h₃⟩ := avLines_keep ls h₂
    refine key (.start h₃) (by simp) ?_ rfl
      (by simp only [SourceFile.run, e₁, e₂, e₃, Res.bind_ok]; rfl)
    simp [SourceFile.tokens, disablings_comments]
    exact (disablings_flatMap (fun x => by cases x <;> simp) ls).symm
  | comments c cs =>
    cases h
    obtain ⟨ms₁, e₁, h₁⟩ := comments_keep (c :: cs) h₀
    exact key (.start h₁) (by simp) (by simp [SourceFile.tokens, disablings_comments]) rfl
      (by simp only [SourceFile.run, e₁, Res.bind_ok]; rfl)

/-- Freeing the tree afterwards frees all that was allocated, but the strings of the commands
that were replaced and the lists of permissions. -/
theorem C85_release {f maps m₀ st ast ms t T L G} (h : Parsed f maps m₀ st ast ms t T L G) :
    ∃ m, (∀ fuel, T.length ≤ fuel → ms.mem.freePolicyNode fuel (some ast) = .ok m) ∧
      Grows m₀ m (L ++ G) ∧ ∀ q ∈ L ++ G, m.obj q = ms.mem.obj q := by
  obtain ⟨hnd, hnew, hsame⟩ := h.grows
  rw [List.append_assoc] at hnd hnew hsame
  have hd := (List.nodup_append.1 hnd).2.2
  have hkeep : ∀ q ∈ L ++ G, q ∉ T := fun q hq hT => hd q hT q hq rfl
  refine ⟨_, fun fuel hf => C81_tree h.tree hf, ⟨(List.nodup_append.1 hnd).2.1, ?_, ?_⟩, ?_⟩
  · intro q hq
    have := hnew q (List.mem_append.2 (.inr hq))
    rw [dropped_obj, if_neg (hkeep q hq)]
    exact this
  · intro q hq
    rw [dropped_obj]
    split
    · exact (hnew q (List.mem_append.2 (.inl ‹_›))).1.symm
    · exact hsame q (by simp_all)
  · intro q hq
    rw [dropped_obj, if_neg (hkeep q hq)]

/-- A file that defines no permissions, and none of whose commands is replaced by a later one
for the same statement, leaves nothing behind. -/
theorem C85_nothing_left {f : SourceFile} {expected : PlainFlavor} {mod : Str} {maps : Maps}
    {st : PState} (h : f.exec expected mod maps = .ok (some st)) {m₀ : Mem} (hb : Bounded m₀)
    (hc : exceptionsBelow st.loc.unzip = disablings f.tokens) (hp : permissionLists f = 0) :
    ∃ ast ms t n m, f.run expected mod maps m₀ = .ok (ast, ms, t) ∧
      (∀ fuel, n ≤ fuel → ms.mem.freePolicyNode fuel (some ast) = .ok m) ∧
      ∀ q, m.obj q = m₀.obj q := by
  obtain ⟨ast, ms, t, T, L, G, hr, hP⟩ := C85_parse h hb
  obtain ⟨m, hm, hg, -⟩ := C85_release hP
  refine ⟨ast, ms, t, _, m, hr, hm, fun q => hg.same q ?_⟩
  have hL : L = [] := by
    have := hP.count
    exact List.length_eq_zero_iff.1 (by omega)
  have hG : G = [] := by
    obtain ⟨K, F, hl, -, -, -, hn⟩ := hP.lists
    have hK : K = [] := List.length_eq_zero_iff.1 (by omega)
    have hF : F = [] := List.length_eq_zero_iff.1 (by omega)
    subst hK hF
    cases hl
    rfl
  simp [hL, hG]

/-- When one command replaces another, a string is left that nothing points to. -/
theorem C85_string_left {f : SourceFile} {expected : PlainFlavor} {mod : Str} {maps : Maps}
    {st : PState} (h : f.exec expected mod maps = .ok (some st)) {m₀ : Mem} (hb : Bounded m₀)
    (hc : exceptionsBelow st.loc.unzip < disablings f.tokens) :
    ∃ ast ms t n m, f.run expected mod maps m₀ = .ok (ast, ms, t) ∧
      (∀ fuel, n ≤ fuel → ms.mem.freePolicyNode fuel (some ast) = .ok m) ∧
      ∃ q s, m₀.obj q = none ∧ m.obj q = some (.bytes s) := by
  obtain ⟨ast, ms, t, T, L, G, hr, hP⟩ := C85_parse h hb
  obtain ⟨m, hm, hg, hs⟩ := C85_release hP
  refine ⟨ast, ms, t, _, m, hr, hm, ?_⟩
  have hcount := hP.count
  cases L with
  | nil => simp only [List.length_nil] at hcount; omega
  | cons q L =>
    obtain ⟨s, hq⟩ := hP.strings q (List.mem_cons_self ..)
    exact ⟨q, s, (hg.new q (by simp)).1, (hs q (by simp)).trans hq⟩

/-! ## Cases -/

/-- ```
policy_module(foo, 1.0)
type foo_t; # selint-disable: W-001
optional_policy(`
	bar()
')
``` -/
def oneCommand : SourceFile :=
  .te [] ⟨1, cs!"foo", true, false, cs!"1.0"⟩
    (.more (.one (.withCommand (.simple 2 (.decl (.type cs!"foo_t"))) cs!"# selint-disable: W-001"))
      (.bare (.optional 3 none (.one (.bare (.simple 4 (.call cs!"bar" none)))))))

/-- ```
policy_module(foo, 1.0)
type foo_t; # selint-disable: W-001
refpolicywarn(`text') # selint-disable: W-002
``` -/
def twoCommands : SourceFile :=
  .te [] ⟨1, cs!"foo", true, false, cs!"1.0"⟩
    (.more (.one (.withCommand (.simple 2 (.decl (.type cs!"foo_t"))) cs!"# selint-disable: W-001"))
      (.withCommand (.silent (.refpolicywarn (.one (.word cs!"text")))) cs!"# selint-disable: W-002"))

theorem bounded_empty : Bounded Mem.empty := fun _ _ => rfl

/-- One command: nothing is left. -/
example : ∃ st, oneCommand.exec .teFile cs!"foo" {} = .ok (some st) ∧
    exceptionsBelow st.loc.unzip = disablings oneCommand.tokens ∧
    disablings oneCommand.tokens = 1 ∧ permissionLists oneCommand = 0 :=
  ⟨_, by with_unfolding_all rfl, by with_unfolding_all rfl, by with_unfolding_all rfl, rfl⟩

/-- The second command is given to the same statement as the first: the first one's string is
lost. -/
example : ∃ st, twoCommands.exec .teFile cs!"foo" {} = .ok (some st) ∧
    exceptionsBelow st.loc.unzip = 1 ∧ disablings twoCommands.tokens = 2 :=
  ⟨_, by with_unfolding_all rfl, by with_unfolding_all rfl, by with_unfolding_all rfl⟩

/-- `r_perms` is defined twice. -/
def twoMacros : SourceFile :=
  .spt [] ⟨cs!"r_perms", .item (.word cs!"read"), none⟩
    [some ⟨cs!"r_perms", .braces (.word cs!"read") [.word cs!"open"], none⟩]

/-- The table keeps the first list, and nothing points to the second one. -/
example : ∃ ms t, twoMacros.run .sptFile cs!"m" {} Mem.empty = .ok (0, ms, t) ∧
    ms.maps.permmacros = [(cs!"r_perms", [cs!"read"])] ∧
    t.kept.length = 1 ∧ t.forgotten.length = 1 :=
  ⟨_, _, by with_unfolding_all rfl, by with_unfolding_all rfl, rfl, rfl⟩

end Selint
