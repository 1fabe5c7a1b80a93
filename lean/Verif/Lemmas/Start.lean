import Verif.Spec.Start
import Verif.Props.Rules
import Verif.Props.Scan
import Verif.Props.ModulesConf
/-!
# Lemmas: the tables before the policy is read
-/

namespace Selint

open Spec

/-! ## Walks -/

mutual
theorem walk_entries {σ : Type} {visit : FtsEnt → σ → σ × Bool} (hv : ∀ e s, (visit e s).2 = false)
    (path name parent : Str) : (fs : Fs) → (s : σ) →
    ftsWalk visit path name parent fs s = (ftsEntries path name parent fs).foldl (fun s e => (visit e s).1) s
  | .file, s => by unfold ftsWalk ftsEntries; rfl
  | .dir es, s => by
    unfold ftsWalk ftsEntries
    simp only [hv, Bool.false_eq_true, if_false, List.foldl_cons, List.foldl_append, List.foldl_nil]
    rw [walk_entriesIn hv]
theorem walk_entriesIn {σ : Type} {visit : FtsEnt → σ → σ × Bool} (hv : ∀ e s, (visit e s).2 = false)
    (dp dn : Str) : (es : FsList) → (s : σ) →
    ftsWalkList visit dp dn es s = (ftsEntriesIn dp dn es).foldl (fun s e => (visit e s).1) s
  | .nil, s => by unfold ftsWalkList ftsEntriesIn; rfl
  | .cons n fs rest, s => by
    unfold ftsWalkList ftsEntriesIn
    rw [List.foldl_append, ← walk_entries hv, walk_entriesIn hv]
end

mutual
theorem entries_below (path name parent : Str) : (fs : Fs) → (e : FtsEnt) → e ∈ ftsEntries path name parent fs →
    (fs = .file ∧ e = ⟨path, name, parent, .other⟩) ∨
      ∃ es, fs = .dir es ∧ (e = ⟨path, name, parent, .d⟩ ∨ e = ⟨path, name, parent, .dp⟩ ∨
        (e.info = .other ∧ Below es e.name .file) ∨ (e.info ≠ .other ∧ ∃ d, Below es e.name (.dir d)))
  | .file, e, h => by unfold ftsEntries at h; simp at h; exact .inl ⟨rfl, h⟩
  | .dir es, e, h => by
    unfold ftsEntries at h
    simp only [List.mem_cons, List.mem_append, List.not_mem_nil, or_false] at h
    refine .inr ⟨es, rfl, ?_⟩
    rcases h with rfl | h | rfl
    · exact .inl rfl
    · exact .inr (.inr (entriesIn_below _ _ es e h))
    · exact .inr (.inl rfl)
theorem entriesIn_below (dp dn : Str) : (es : FsList) → (e : FtsEnt) → e ∈ ftsEntriesIn dp dn es →
    (e.info = .other ∧ Below es e.name .file) ∨ (e.info ≠ .other ∧ ∃ d, Below es e.name (.dir d))
  | .nil, e, h => by unfold ftsEntriesIn at h; cases h
  | .cons n fs rest, e, h => by
    unfold ftsEntriesIn at h
    rcases List.mem_append.1 h with h | h
    · rcases entries_below _ _ _ fs e h with ⟨rfl, rfl⟩ | ⟨es, rfl, rfl | rfl | ⟨h1, h2⟩ | ⟨h1, d, h2⟩⟩
      · exact .inl ⟨rfl, .here ..⟩
      · exact .inr ⟨by simp, es, .here ..⟩
      · exact .inr ⟨by simp, es, .here ..⟩
      · exact .inl ⟨h1, .deeper _ _ h2⟩
      · exact .inr ⟨h1, d, .deeper _ _ h2⟩
    · rcases entriesIn_below dp dn rest e h with ⟨h1, h2⟩ | ⟨h1, d, h2⟩
      · exact .inl ⟨h1, .there _ _ h2⟩
      · exact .inr ⟨h1, d, .there _ _ h2⟩
end

theorem below_entries {es : FsList} {n : Str} {fs : Fs} (h : Below es n fs) : ∀ dp dn : Str,
    ∃ e ∈ ftsEntriesIn dp dn es, e.name = n ∧ (fs = .file → e.info = .other) ∧ ((∃ d, fs = .dir d) → e.info = .d) := by
  induction h with
  | here n fs rest =>
    intro dp dn
    unfold ftsEntriesIn
    cases fs with
    | file => unfold ftsEntries; exact ⟨_, List.mem_append_left _ (List.mem_singleton.2 rfl), rfl, fun _ => rfl, by rintro ⟨d, h⟩; cases h⟩
    | dir es => unfold ftsEntries; exact ⟨_, List.mem_append_left _ List.mem_cons_self, rfl, (fun h => by cases h), fun _ => rfl⟩
  | there m fs' _ ih =>
    intro dp dn
    obtain ⟨e, h1, h2⟩ := ih dp dn
    unfold ftsEntriesIn
    exact ⟨e, List.mem_append_right _ h1, h2⟩
  | deeper m rest _ ih =>
    intro dp dn
    obtain ⟨e, h1, h2⟩ := ih (joinPath dp m) m
    unfold ftsEntriesIn ftsEntries
    exact ⟨e, List.mem_append_left _ (List.mem_cons_of_mem _ (List.mem_append_left _ h1)), h2⟩

/-! ## The kernel -/

/-- The insertion for an entry. -/
def kernelOp (e : FtsEnt) : List MapOp :=
  if e.info = .d ∧ e.name ≠ cs!"perms" then [.decl e.name cs!"class" .cls]
  else if e.info = .other ∧ e.name ≠ cs!"index" then [.decl e.name cs!"perm" .perm]
  else []

theorem visitKernel_op (e : FtsEnt) (m : Maps) : visitKernel e m = ((kernelOp e).foldl MapOp.apply m, false) := by
  unfold visitKernel kernelOp
  split
  · rfl
  · split <;> rfl

theorem foldl_flatMap_apply {α : Type} (f : α → List MapOp) (l : List α) (m : Maps) :
    l.foldl (fun m a => (f a).foldl MapOp.apply m) m = (l.flatMap f).foldl MapOp.apply m := by
  induction l generalizing m with
  | nil => rfl
  | cons a l ih => rw [List.foldl_cons, ih, List.flatMap_cons, List.foldl_append]

theorem kernel_ops (kernel : Option Fs) (m : Maps) : ∃ ops : List MapOp,
    loadAccessVectorsKernel kernel m = ops.foldl MapOp.apply m ∧
    (∀ op ∈ ops, ∃ n fl, op = .decl n (if fl = .cls then cs!"class" else cs!"perm") fl ∧ KernelHas kernel fl n) ∧
    ∀ fl n, KernelHas kernel fl n → ∃ md, MapOp.decl n md fl ∈ ops := by
  rcases kernel with _ | _ | es
  · exact ⟨[], rfl, by simp, fun fl n h => by cases fl <;> exact h.elim⟩
  · refine ⟨[.decl cs!"class" cs!"perm" .perm], rfl, ?_, fun fl n h => ?_⟩
    · simp only [List.mem_singleton, forall_eq]
      exact ⟨cs!"class", .perm, rfl, rfl⟩
    · cases fl <;> first | exact h.elim | (cases h; exact ⟨_, List.mem_singleton.2 rfl⟩)
  refine ⟨(ftsEntriesIn cs!"/sys/fs/selinux/class" cs!"class" es).flatMap kernelOp, ?_, fun op h => ?_, fun fl n h => ?_⟩
  · unfold loadAccessVectorsKernel
    dsimp only
    rw [walk_entriesIn (fun e s => by rw [visitKernel_op]), ← foldl_flatMap_apply]
    simp only [visitKernel_op]
  · obtain ⟨e, h1, h2⟩ := List.mem_flatMap.1 h
    have hb := entriesIn_below _ _ es e h1
    unfold kernelOp at h2
    split at h2
    · rename_i hi
      simp only [List.mem_singleton] at h2
      rcases hb with ⟨h3, -⟩ | ⟨-, d, h3⟩
      · rw [hi.1] at h3; cases h3
      · exact ⟨e.name, .cls, h2, hi.2, d, h3⟩
    · split at h2
      · rename_i hi
        simp only [List.mem_singleton] at h2
        rcases hb with ⟨-, h3⟩ | ⟨h3, -⟩
        · exact ⟨e.name, .perm, h2, hi.2, h3⟩
        · exact absurd hi.1 h3
      · cases h2
  · cases fl <;> try exact h.elim
    · obtain ⟨h1, d, h2⟩ := h
      obtain ⟨e, h3, h4, -, h5⟩ := below_entries h2 cs!"/sys/fs/selinux/class" cs!"class"
      refine ⟨cs!"class", List.mem_flatMap.2 ⟨e, h3, ?_⟩⟩
      unfold kernelOp
      rw [if_pos ⟨h5 ⟨d, rfl⟩, h4 ▸ h1⟩, h4]
      simp
    · obtain ⟨h1, h2⟩ := h
      obtain ⟨e, h3, h4, h5, -⟩ := below_entries h2 cs!"/sys/fs/selinux/class" cs!"class"
      refine ⟨cs!"perm", List.mem_flatMap.2 ⟨e, h3, ?_⟩⟩
      unfold kernelOp
      rw [if_neg (by rw [h5 rfl]; simp), if_pos ⟨h5 rfl, h4 ▸ h1⟩, h4]
      simp

/-! ## The headers and the scan -/

theorem suffix3_if (p : Str) : suffix3 p = some cs!".if" ↔ cs!".if" <:+ p ∧ 3 < p.length := by
  rw [suffix3_iff _ _ (by rfl)]
  constructor
  · rintro ⟨b, h1, rfl⟩
    exact ⟨⟨b, rfl⟩, by cases b with | nil => exact absurd rfl h1 | cons c b => simp⟩
  · rintro ⟨⟨b, rfl⟩, h⟩
    exact ⟨b, by rintro rfl; simp at h, rfl⟩

theorem devel_entries (es : List FtsEnt) (s : Scan) :
    es.foldl (fun s e => (visitDevel e s).1) s =
      { s with contextIf := s.contextIf ++ (interfaceFiles es).map (·.path)
               maps := ((interfaceFiles es).map layerOp).foldl MapOp.apply s.maps } := by
  induction es generalizing s with
  | nil => simp [interfaceFiles]
  | cons e es ih =>
    rw [List.foldl_cons, ih]
    unfold interfaceFiles visitDevel
    by_cases h : suffix3 e.path = some cs!".if"
    · rw [if_pos h]
      rw [suffix3_if] at h
      simp [h, layerOp, MapOp.apply]
    · rw [if_neg h]
      rw [suffix3_if] at h
      simp [h]

theorem headers_load (w : Machine) (s : Scan) : loadDevelHeaders w.devel s =
      { s with contextIf := s.contextIf ++ (headers w).map (·.path)
               maps := ((headers w).map layerOp).foldl MapOp.apply s.maps } := by
  unfold loadDevelHeaders headers
  cases w.devel with
  | none => simp
  | some fs =>
    dsimp only
    rw [walk_entries (fun e s => by unfold visitDevel; split <;> rfl), devel_entries]

/-- Scanning from `s` to `s'` finds these interface files and enters their modules. -/
def Layered (s s' : Scan) : Prop :=
  ∃ es : List FtsEnt, s'.ifs = s.ifs ++ es.map (·.path) ∧ s'.maps = (es.map layerOp).foldl MapOp.apply s.maps

theorem Layered.refl (s : Scan) : Layered s s := ⟨[], by simp, rfl⟩

theorem Layered.trans {a b c : Scan} (h1 : Layered a b) (h2 : Layered b c) : Layered a c := by
  obtain ⟨e1, x1, y1⟩ := h1
  obtain ⟨e2, x2, y2⟩ := h2
  exact ⟨e1 ++ e2, by rw [x2, x1]; simp, by rw [y2, y1]; simp [List.foldl_append]⟩

theorem layered_main (o : Options) (roots : List (Str × Fs)) (s : Scan) : Layered s (scanMain o roots s) := by
  unfold scanMain
  induction roots generalizing s with
  | nil => exact .refl _
  | cons r roots ih =>
    refine Layered.trans ?_ (ih _)
    refine ftsWalk_inv (P := Layered s) (fun e s' h => h.trans ?_) _ _ _ _ _ (.refl _)
    unfold visitMain
    split
    · exact ⟨[], by simp, rfl⟩
    · split
      · exact ⟨[e], by simp, rfl⟩
      · repeat' split
        all_goals exact ⟨[], by simp, rfl⟩

theorem layered_context (o : Options) (roots : List (Str × Fs)) (s : Scan) : Layered s (scanContext o roots s) := by
  unfold scanContext
  induction roots generalizing s with
  | nil => exact .refl _
  | cons r roots ih =>
    refine Layered.trans ?_ (ih _)
    refine ftsWalk_inv (P := Layered s) (fun e s' h => h.trans ?_) _ _ _ _ _ (.refl _)
    unfold visitContext
    repeat' split
    all_goals exact ⟨[], by simp, rfl⟩

theorem collect_layered (w : Machine) (st : Settings) (paths : List Str) :
    Layered { maps := st.maps } (collect w st paths) :=
  (layered_main ..).trans (layered_context ..)

/-! ## The configuration -/

theorem insertConfig_ops (m : Maps) (names : List Str) (fl : DeclFlavor) :
    insertConfigDeclarations m names fl = (declOps cs!"__assumed__" (names.map (fl, ·))).foldl MapOp.apply m := by
  unfold insertConfigDeclarations declOps
  induction names generalizing m with
  | nil => rfl
  | cons n ns ih => rw [List.foldl_cons, ih]; rfl

theorem parseConfig_maps {cfg : Cfg} {src : Bool} {m : Maps} {p : ParsedConfig} (h : parseConfig cfg src m = some p) :
    p.maps = insertConfigDeclarations (insertConfigDeclarations m cfg.assumeUsers .user) cfg.assumeRoles .role := by
  unfold parseConfig at h
  simp only at h
  repeat (split at h <;> try (simp at h; done))
  all_goals (simp only [Option.some.injEq] at h; subst h; rfl)

theorem settings_ops {w : ConfigWorld} {o : Options} {k : Nat} {st : Settings} (h : settings w o k = .go st) :
    st.maps = tablesAfter (declOps cs!"__assumed__" (assumed w o)) := by
  unfold settings chooseConfig at h
  unfold assumed effectiveConfig
  cases hf : o.configFile with
  | some f =>
    simp only [hf] at h ⊢
    by_cases hr : w.readable f = true
    · simp only [hr, if_true] at h
      cases hc : w.contents f with
      | none => simp [hc] at h
      | some cfg =>
        simp only [hc] at h ⊢
        cases hp : parseConfig cfg o.sourceFlag {} with
        | none => simp [hp] at h
        | some p =>
          simp only [hp] at h
          split at h
          · cases h
          · split at h
            · cases h
            · cases h
              dsimp only
              rw [parseConfig_maps hp, insertConfig_ops, insertConfig_ops, ← List.foldl_append]
              simp [declOps, tablesAfter]
    · simp [hr] at h
  | none =>
    simp only [hf] at h ⊢
    by_cases hr : w.readable w.defaultPath = true
    · simp only [hr, if_true] at h ⊢
      cases hc : w.contents w.defaultPath with
      | none => simp [hc] at h
      | some cfg =>
        simp only [hc] at h ⊢
        cases hp : parseConfig cfg o.sourceFlag {} with
        | none => simp [hp] at h
        | some p =>
          simp only [hp] at h
          split at h
          · cases h
          · split at h
            · cases h
            · cases h
              dsimp only
              rw [parseConfig_maps hp, insertConfig_ops, insertConfig_ops, ← List.foldl_append]
              simp [declOps, tablesAfter]
    · simp only [hr, if_false, Bool.false_eq_true] at h ⊢
      split at h
      · cases h
      · split at h
        · cases h
        · cases h
          rfl

end Selint
