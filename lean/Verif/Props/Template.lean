import Verif.Spec.Template
import Verif.Lemmas.Maps
import Verif.Lemmas.Basic
import Verif.Props.M4
/-! # C18, C19: template expansion (`add_template_declarations`) -/

namespace Selint
open Spec

/-- The loop over the calls of a template, at a given depth. -/
def expandCallsAt (fuel : Nat) (args : List (Option Str)) (chain : List Str) (mod : Str)
    (cs : List IfCallData) (m : Maps) : ExpRes :=
  expandCalls (fun n a m' => addTemplateDeclarations fuel n a chain mod m') args cs m

theorem expandCallsAt_nil (fuel : Nat) (args : List (Option Str)) (chain : List Str) (mod : Str)
    (m : Maps) : expandCallsAt fuel args chain mod [] m = .done .success m := rfl

theorem expandCallsAt_cons (fuel : Nat) (args : List (Option Str)) (chain : List Str) (mod : Str)
    (c : IfCallData) (cs : List IfCallData) (m : Maps) :
    expandCallsAt fuel args chain mod (c :: cs) m =
      match replaceM4List args c.argStrs with
      | .ub => .ub
      | .ok newArgs =>
        match addTemplateDeclarations fuel c.name newArgs chain mod m with
        | .done .success m' => expandCallsAt fuel args chain mod cs m'
        | r => r := rfl

theorem add_succ (fuel : Nat) (name : Str) (args : List (Option Str)) (parents : List Str)
    (mod : Str) (m : Maps) :
    addTemplateDeclarations (fuel + 1) name args parents mod m =
      if strInSl name parents then .done .ifCallLoop m
      else
        match expandCallsAt fuel args (name :: parents) mod (m.templateCalls name) m with
        | .done .success m' => expandDecls mod args (m.templateDecls name) m'
        | r => r := rfl

/-! ## The template table does not change -/

theorem expandDecls_template {mod : Str} {args : List (Option Str)} {ds : List (DeclFlavor × Str)}
    {m m' : Maps} {e : SelintError} (h : expandDecls mod args ds m = .done e m') :
    m'.template = m.template := by
  induction ds generalizing m with
  | nil => simp [expandDecls] at h; simp [h.2]
  | cons d ds ih =>
    obtain ⟨fl, d⟩ := d
    simp only [expandDecls] at h
    split at h
    · simp at h
    · split at h
      · simp at h
      · simp at h; simp [h.2]
      · rw [ih h]; exact (Maps.insertDecl_other ..).2.2.2.2.2.2.2

mutual
theorem add_template (fuel : Nat) {name : Str} {args : List (Option Str)} {parents : List Str}
    {mod : Str} {m m' : Maps} {e : SelintError}
    (h : addTemplateDeclarations fuel name args parents mod m = .done e m') :
    m'.template = m.template := by
  cases fuel with
  | zero => simp [addTemplateDeclarations] at h
  | succ fuel =>
    simp only [add_succ] at h
    split at h
    · simp at h; simp [h.2]
    · split at h
      · rename_i m1 h1
        rw [expandDecls_template h]
        exact calls_template fuel _ h1
      · exact calls_template fuel _ h
termination_by (fuel, 0)
theorem calls_template (fuel : Nat) {args : List (Option Str)} {chain : List Str} {mod : Str}
    (cs : List IfCallData) {m m' : Maps} {e : SelintError}
    (h : expandCallsAt fuel args chain mod cs m = .done e m') : m'.template = m.template := by
  cases cs with
  | nil => simp [expandCallsAt_nil] at h; simp [h.2]
  | cons c cs =>
    simp only [expandCallsAt_cons] at h
    split at h
    · simp at h
    · split at h
      · rename_i m1 h1
        rw [calls_template fuel cs h]
        exact add_template fuel h1
      · exact add_template fuel h
termination_by (fuel, cs.length + 1)
end

theorem templateCalls_congr {m m' : Maps} (h : m'.template = m.template) (n : Str) :
    m'.templateCalls n = m.templateCalls n := by
  unfold Maps.templateCalls Maps.lookUpTemplate; rw [h]

theorem templateDecls_congr {m m' : Maps} (h : m'.template = m.template) (n : Str) :
    m'.templateDecls n = m.templateDecls n := by
  unfold Maps.templateDecls Maps.lookUpTemplate; rw [h]

/-! ## Termination -/

theorem expandDecls_ne_fuel (mod : Str) (args : List (Option Str)) (ds : List (DeclFlavor × Str))
    (m : Maps) : expandDecls mod args ds m ≠ .fuel := by
  induction ds generalizing m with
  | nil => simp [expandDecls]
  | cons d ds ih =>
    obtain ⟨fl, d⟩ := d
    simp only [expandDecls]
    split
    · simp
    · split
      · simp
      · simp
      · exact ih _

theorem nodup_subset_length {l k : List Str} (hn : l.Nodup) (hs : ∀ x ∈ l, x ∈ k) :
    l.length ≤ k.length := by
  induction l generalizing k with
  | nil => simp
  | cons a l ih =>
    simp only [List.nodup_cons] at hn
    have ha := hs a (by simp)
    have := ih (k := k.erase a) hn.2 (by
      intro x hx
      have hne : x ≠ a := by rintro rfl; exact hn.1 hx
      exact (List.mem_erase_of_ne hne).mpr (hs x (by simp [hx])))
    rw [List.length_erase_of_mem ha] at this
    have : 0 < k.length := List.length_pos_of_mem ha
    simp; omega

mutual
theorem add_ne_fuel (T : Assoc TemplateElem) (fuel : Nat) (name : Str) (args : List (Option Str))
    (parents : List Str) (mod : Str) (m : Maps) (hT : m.template = T) (hn : parents.Nodup)
    (hs : ∀ x ∈ parents, x ∈ T.map (·.1)) (hf : T.length + 1 ≤ fuel + parents.length) :
    addTemplateDeclarations fuel name args parents mod m ≠ .fuel := by
  have hl := nodup_subset_length hn hs
  simp at hl
  cases fuel with
  | zero => omega
  | succ fuel =>
    simp only [add_succ]
    split
    · simp
    · rename_i hin
      have hnot : name ∉ parents := by rw [← strInSl_iff]; exact hin
      have : expandCallsAt fuel args (name :: parents) mod (m.templateCalls name) m ≠ .fuel := by
        by_cases hc : m.templateCalls name = []
        · rw [hc]; simp [expandCallsAt_nil]
        · have hk : name ∈ T.map (·.1) := by
            rw [← Assoc.find_isSome_iff, ← hT]
            unfold Maps.templateCalls Maps.lookUpTemplate at hc
            split at hc
            · rename_i h; simp [h]
            · simp at hc
          exact calls_ne_fuel T fuel args (name :: parents) mod _ m hT (by simp [hnot, hn])
            (by simp at hs hk ⊢; exact ⟨hk, hs⟩) (by simp; omega)
      split
      · exact expandDecls_ne_fuel _ _ _ _
      · exact this
termination_by (fuel, 0)
theorem calls_ne_fuel (T : Assoc TemplateElem) (fuel : Nat) (args : List (Option Str))
    (chain : List Str) (mod : Str) (cs : List IfCallData) (m : Maps) (hT : m.template = T)
    (hn : chain.Nodup) (hs : ∀ x ∈ chain, x ∈ T.map (·.1))
    (hf : T.length + 1 ≤ fuel + chain.length) :
    expandCallsAt fuel args chain mod cs m ≠ .fuel := by
  cases cs with
  | nil => simp [expandCallsAt_nil]
  | cons c cs =>
    simp only [expandCallsAt_cons]
    split
    · simp
    · rename_i newArgs _
      have h1 := add_ne_fuel T fuel c.name newArgs chain mod m hT hn hs hf
      split
      · rename_i m1 hm1
        exact calls_ne_fuel T fuel args chain mod cs m1 (by rw [add_template fuel hm1, hT]) hn hs hf
      · exact h1
termination_by (fuel, cs.length + 1)
end

mutual
theorem add_mono (fuel : Nat) (name : Str) (args : List (Option Str))
    (parents : List Str) (mod : Str) (m : Maps) (k : Nat)
    (h : addTemplateDeclarations fuel name args parents mod m ≠ .fuel) :
    addTemplateDeclarations (fuel + k) name args parents mod m =
      addTemplateDeclarations fuel name args parents mod m := by
  cases fuel with
  | zero => simp [addTemplateDeclarations] at h
  | succ fuel =>
    rw [Nat.add_right_comm]
    simp only [add_succ] at h ⊢
    split
    · rfl
    · rename_i hin
      rw [if_neg hin] at h
      have h1 : expandCallsAt fuel args (name :: parents) mod (m.templateCalls name) m ≠ .fuel := by
        intro he; rw [he] at h; simp at h
      rw [calls_mono fuel args (name :: parents) mod _ m k h1]
termination_by (fuel, 0)
theorem calls_mono (fuel : Nat) (args : List (Option Str))
    (chain : List Str) (mod : Str) (cs : List IfCallData) (m : Maps) (k : Nat)
    (h : expandCallsAt fuel args chain mod cs m ≠ .fuel) :
    expandCallsAt (fuel + k) args chain mod cs m = expandCallsAt fuel args chain mod cs m := by
  cases cs with
  | nil => simp [expandCallsAt_nil]
  | cons c cs =>
    simp only [expandCallsAt_cons] at h ⊢
    cases h0 : replaceM4List args c.argStrs with
    | ub => rfl
    | ok newArgs =>
      simp only [h0] at h ⊢
      have h1 : addTemplateDeclarations fuel c.name newArgs chain mod m ≠ .fuel := by
        intro he; rw [he] at h; simp at h
      rw [add_mono fuel c.name newArgs chain mod m k h1]
      cases h2 : addTemplateDeclarations fuel c.name newArgs chain mod m with
      | ub => rfl
      | fuel => rfl
      | done e m1 =>
        rw [h2] at h
        cases e with
        | success => exact calls_mono fuel args chain mod cs m1 k h
        | _ => rfl
termination_by (fuel, cs.length + 1)
end

/-- C18 (termination). The expansion of any template in any table, with any arguments (NULL
strings included), ends: the recursion never goes deeper than one more than the number of
templates, and allowing it to go deeper changes nothing. -/
theorem C18_terminates (name : Str) (args : List (Option Str)) (mod : Str) (m : Maps) (bound : Nat)
    (hb : m.template.length + 1 ≤ bound) :
    addTemplateDeclarations bound name args [] mod m ≠ .fuel ∧
    addTemplateDeclarations bound name args [] mod m =
      addTemplateDeclarations (m.template.length + 1) name args [] mod m := by
  have h := add_ne_fuel m.template (m.template.length + 1) name args [] mod m rfl (by simp)
    (by simp) (by simp)
  obtain ⟨k, rfl⟩ := Nat.exists_eq_add_of_le hb
  rw [add_mono _ _ _ _ _ _ k h]
  exact ⟨h, rfl⟩

/-! ## Call loops -/

theorem chain_first {m : Maps} {a b : Str} (h : CallChain m a b) :
    ∃ c ∈ m.templateCalls a, c.name = b ∨ CallChain m c.name b := by
  cases h with
  | one h => obtain ⟨c, hc, rfl⟩ := h; exact ⟨c, hc, Or.inl rfl⟩
  | step h h2 => obtain ⟨c, hc, rfl⟩ := h; exact ⟨c, hc, Or.inr h2⟩

theorem chain_of {m : Maps} {a b : Str} {c : IfCallData} (hc : c ∈ m.templateCalls a)
    (h : c.name = b ∨ CallChain m c.name b) : CallChain m a b := by
  rcases h with rfl | h
  · exact .one ⟨c, hc, rfl⟩
  · exact .step ⟨c, hc, rfl⟩ h

theorem expandDecls_codes {mod : Str} {args : List (Option Str)} {ds : List (DeclFlavor × Str)}
    {m m' : Maps} {e : SelintError} (h : expandDecls mod args ds m = .done e m') :
    e = .success ∨ e = .m4SubFailure := by
  induction ds generalizing m with
  | nil => simp [expandDecls] at h; simp [h.1]
  | cons d ds ih =>
    obtain ⟨fl, d⟩ := d
    simp only [expandDecls] at h
    split at h
    · simp at h
    · split at h
      · simp at h
      · simp at h; simp [h.1]
      · exact ih h

mutual
theorem add_result (m0 : Maps) (fuel : Nat) {name : Str} {args : List (Option Str)}
    {parents : List Str} {mod : Str} {m m' : Maps} {e : SelintError} (hT : m.template = m0.template)
    (h : addTemplateDeclarations fuel name args parents mod m = .done e m') :
    (e = .success ∧ ¬Loops m0 name ∧ ∀ p ∈ parents, name ≠ p ∧ ¬CallChain m0 name p) ∨
    (e = .ifCallLoop ∧ (Loops m0 name ∨ ∃ p ∈ parents, name = p ∨ CallChain m0 name p)) ∨
    e = .m4SubFailure := by
  cases fuel with
  | zero => simp [addTemplateDeclarations] at h
  | succ fuel =>
    simp only [add_succ] at h
    split at h
    · rename_i hin
      simp at h
      exact Or.inr (Or.inl ⟨h.1.symm, Or.inr ⟨name, strInSl_iff.mp hin, Or.inl rfl⟩⟩)
    · rename_i hin
      have hnot : name ∉ parents := by rw [← strInSl_iff]; exact hin
      rw [templateCalls_congr hT] at h
      split at h
      · rename_i m1 h1
        rcases expandDecls_codes h with rfl | rfl
        · left
          have := calls_result m0 fuel (m0.templateCalls name) hT h1
          simp only [true_and, reduceCtorEq, false_and, or_false] at this
          refine ⟨rfl, ?_, ?_⟩
          · rintro ⟨t, ht, hl⟩
            rcases ht with rfl | ht
            · obtain ⟨c, hc, hcc⟩ := chain_first hl
              have h3 := (this c hc).2 t (by simp)
              rcases hcc with rfl | hcc
              · exact h3.1 rfl
              · exact h3.2 hcc
            · obtain ⟨c, hc, hcc⟩ := chain_first ht
              refine (this c hc).1 ⟨t, ?_, hl⟩
              rcases hcc with h | h
              · exact Or.inl h.symm
              · exact Or.inr h
          · intro p hp
            refine ⟨by rintro rfl; exact hnot hp, ?_⟩
            intro hch
            obtain ⟨c, hc, hcc⟩ := chain_first hch
            have h3 := (this c hc).2 p (by simp [hp])
            rcases hcc with h | h
            · exact h3.1 h
            · exact h3.2 h
        · exact Or.inr (Or.inr rfl)
      · rename_i r hr
        rcases calls_result m0 fuel (m0.templateCalls name) hT h with ⟨rfl, _⟩ | ⟨rfl, h2⟩ | rfl
        · exact absurd h (hr m')
        · refine Or.inr (Or.inl ⟨rfl, ?_⟩)
          obtain ⟨c, hc, h3⟩ := h2
          rcases h3 with h3 | ⟨p, hp, h3⟩
          · obtain ⟨t, ht, hl⟩ := h3
            refine Or.inl ⟨t, Or.inr (chain_of hc ?_), hl⟩
            rcases ht with h | h
            · exact Or.inl h.symm
            · exact Or.inr h
          · have := chain_of hc h3
            simp at hp
            rcases hp with rfl | hp
            · exact Or.inl ⟨p, Or.inl rfl, this⟩
            · exact Or.inr ⟨p, hp, Or.inr this⟩
        · exact Or.inr (Or.inr rfl)
termination_by (fuel, 0)
theorem calls_result (m0 : Maps) (fuel : Nat) {args : List (Option Str)} {chain : List Str}
    {mod : Str} (cs : List IfCallData) {m m' : Maps} {e : SelintError}
    (hT : m.template = m0.template) (h : expandCallsAt fuel args chain mod cs m = .done e m') :
    (e = .success ∧ ∀ c ∈ cs, ¬Loops m0 c.name ∧
      ∀ p ∈ chain, c.name ≠ p ∧ ¬CallChain m0 c.name p) ∨
    (e = .ifCallLoop ∧ ∃ c ∈ cs, Loops m0 c.name ∨ ∃ p ∈ chain, c.name = p ∨ CallChain m0 c.name p) ∨
    e = .m4SubFailure := by
  cases cs with
  | nil => simp [expandCallsAt_nil] at h; simp [h.1]
  | cons c cs =>
    simp only [expandCallsAt_cons] at h
    split at h
    · simp at h
    · rename_i newArgs _
      split at h
      · rename_i m1 h1
        have h2 := add_result m0 fuel hT h1
        simp only [true_and, reduceCtorEq, false_and, or_false] at h2
        have h3 := calls_result m0 fuel cs (by rw [add_template fuel h1, hT]) h
        rcases h3 with ⟨rfl, h3⟩ | ⟨rfl, d, hd, h3⟩ | rfl
        · refine Or.inl ⟨rfl, ?_⟩
          intro d hd
          simp at hd
          rcases hd with rfl | hd
          · exact h2
          · exact h3 d hd
        · exact Or.inr (Or.inl ⟨rfl, d, by simp [hd], h3⟩)
        · exact Or.inr (Or.inr rfl)
      · rename_i r hr
        rcases add_result m0 fuel hT h with ⟨rfl, _⟩ | ⟨rfl, h2⟩ | rfl
        · exact absurd h (hr m')
        · exact Or.inr (Or.inl ⟨rfl, c, by simp, h2⟩)
        · exact Or.inr (Or.inr rfl)
termination_by (fuel, cs.length + 1)
end

/-- C18 (loops). A finished expansion returns success, a call loop or a substitution failure.
It never reports a call loop unless some chain of nested calls starting at the template
repeats a template; it never succeeds if there is such a chain; so if substitution does not
fail, it reports a loop exactly if there is one. -/
theorem C18_loop_iff {name : Str} {args : List Str} {mod : Str} {m m' : Maps} {e : SelintError}
    (h : expandTemplate name args mod m = .done e m') :
    (e = .success ∨ e = .ifCallLoop ∨ e = .m4SubFailure) ∧
    (e = .ifCallLoop → Loops m name) ∧ (e = .success → ¬Loops m name) ∧
    (e ≠ .m4SubFailure → (e = .ifCallLoop ↔ Loops m name)) := by
  rcases add_result m _ rfl h with ⟨rfl, h1, _⟩ | ⟨rfl, h1⟩ | rfl
  · simp [h1]
  · simp at h1; simp [h1]
  · simp

/-- A table with a loop that does not go through the first template, and one without. -/
def exLoopMaps : Maps :=
  { template :=
      [(cs!"a", { declarations := [(.type, cs!"$1_t")],
                  calls := [{ name := cs!"b", args := [(cs!"$1_x", false)] }] }),
       (cs!"b", { declarations := [(.type, cs!"$1_exec_t")],
                  calls := [{ name := cs!"c", args := [(cs!"$1", false)] }] }),
       (cs!"c", { declarations := [],
                  calls := [{ name := cs!"b", args := [(cs!"$1", false)] }] }),
       (cs!"d", { declarations := [(.role, cs!"$2_r")],
                  calls := [{ name := cs!"e", args := [(cs!"$2_d", false), (cs!"z", false)] }] }),
       (cs!"e", { declarations := [(.type, cs!"$1_t")], calls := [] })] }

example : expandTemplate cs!"a" [cs!"foo"] cs!"mod" exLoopMaps = .done .ifCallLoop exLoopMaps := by
  decide +kernel
example : expandTemplate cs!"d" [cs!"foo", cs!"bar"] cs!"mod" exLoopMaps =
    .done .success { exLoopMaps with type := [(cs!"bar_d_t", cs!"mod")], role := [(cs!"bar_r", cs!"mod")] } := by
  decide +kernel

/-! ## What is declared -/

/-- Every declared name and call argument in the table refers to arguments as `$1`, `$2`, ... -/
def PlainTable (m : Maps) : Prop :=
  ∀ name, (∀ d ∈ m.templateDecls name, ∃ vs, Refs d.2 vs) ∧
    ∀ c ∈ m.templateCalls name, ∀ a ∈ c.args, ∃ vs, Refs a.1 vs

theorem allStrings_map (args : List Str) : allStrings (args.map some) = .ok args := by
  induction args with
  | nil => rfl
  | cons a as ih => simp [allStrings, ih]

theorem replaceM4List_go {args : List Str} {frm : List Str} {out : List (Option Str)}
    (hp : ∀ a ∈ frm, ∃ vs, Refs a vs) (h : replaceM4List.go args frm = .ok out) :
    ∃ rs, out = rs.map some ∧ ArgsSubst args frm rs := by
  induction frm generalizing out with
  | nil => simp [replaceM4List.go] at h; subst h; exact ⟨[], rfl, .nil⟩
  | cons a frm ih =>
    simp only [replaceM4List.go] at h
    obtain ⟨vs, hvs⟩ := hp a (by simp)
    obtain ⟨r, hr⟩ := C20_result_exists hvs args
    rcases C20_substitutes hr with h1 | h1
    · simp only [h1] at h
      split at h
      · simp at h
      · rename_i rs hrs
        simp at h; subst h
        obtain ⟨rs', rfl, h2⟩ := ih (fun b hb => hp b (by simp [hb])) hrs
        exact ⟨r :: rs', rfl, .cons hr h2⟩
    · simp [h1] at h

theorem replaceM4List_subst {args : List Str} {frm : List Str} {out : List (Option Str)}
    (hp : ∀ a ∈ frm, ∃ vs, Refs a vs) (h : replaceM4List (args.map some) frm = .ok out) :
    ∃ rs, out = rs.map some ∧ ArgsSubst args frm rs := by
  unfold replaceM4List at h
  split at h
  · simp at h
  · simp only [allStrings_map] at h
    exact replaceM4List_go hp h

/-- Inserting a list of declarations on behalf of a module. -/
def insertAll (mod : Str) (out : List (DeclFlavor × Str)) (m : Maps) : Maps :=
  out.foldl (fun m d => m.insertDecl d.2 mod d.1) m

theorem insertAll_append (mod : Str) (a b : List (DeclFlavor × Str)) (m : Maps) :
    insertAll mod (a ++ b) m = insertAll mod b (insertAll mod a m) := by
  simp [insertAll, List.foldl_append]

theorem expandDecls_out {mod : Str} {args : List Str} {ds : List (DeclFlavor × Str)} {m m' : Maps}
    (hp : ∀ d ∈ ds, ∃ vs, Refs d.2 vs)
    (h : expandDecls mod (args.map some) ds m = .done .success m') :
    ∃ out, DeclsSubst args ds out ∧ m' = insertAll mod out m := by
  induction ds generalizing m with
  | nil => simp [expandDecls] at h; exact ⟨[], .nil, h.symm⟩
  | cons d ds ih =>
    obtain ⟨fl, d⟩ := d
    simp only [expandDecls, allStrings_map] at h
    obtain ⟨vs, hvs⟩ := hp (fl, d) (by simp)
    obtain ⟨r, hr⟩ := C20_result_exists hvs args
    rcases C20_substitutes hr with h1 | h1
    · simp only [h1] at h
      obtain ⟨out, h2, h3⟩ := ih (fun b hb => hp b (by simp [hb])) h
      exact ⟨(fl, r) :: out, .cons hr h2, by rw [h3]; rfl⟩
    · simp [h1] at h

mutual
theorem add_out (m0 : Maps) (hp : PlainTable m0) (fuel : Nat) {name : Str} {args : List Str}
    {parents : List Str} {mod : Str} {m m' : Maps} (hT : m.template = m0.template)
    (h : addTemplateDeclarations fuel name (args.map some) parents mod m = .done .success m') :
    ∃ out, Expands m0 name args out ∧ m' = insertAll mod out m := by
  cases fuel with
  | zero => simp [addTemplateDeclarations] at h
  | succ fuel =>
    simp only [add_succ] at h
    split at h
    · simp at h
    · rw [templateCalls_congr hT, templateDecls_congr hT] at h
      split at h
      · rename_i m1 h1
        obtain ⟨inner, h2, h3⟩ := calls_out m0 hp fuel (m0.templateCalls name) (hp name).2 hT h1
        obtain ⟨own, h4, h5⟩ := expandDecls_out (hp name).1 h
        exact ⟨inner ++ own, .mk h2 h4, by rw [insertAll_append, ← h3, h5]⟩
      · rename_i r hr; exact absurd h (hr m')
termination_by (fuel, 0)
theorem calls_out (m0 : Maps) (hp : PlainTable m0) (fuel : Nat) {args : List Str}
    {chain : List Str} {mod : Str} (cs : List IfCallData)
    (hc : ∀ c ∈ cs, ∀ a ∈ c.args, ∃ vs, Refs a.1 vs) {m m' : Maps} (hT : m.template = m0.template)
    (h : expandCallsAt fuel (args.map some) chain mod cs m = .done .success m') :
    ∃ out, ExpandsCalls m0 args cs out ∧ m' = insertAll mod out m := by
  cases cs with
  | nil => simp [expandCallsAt_nil] at h; exact ⟨[], .nil, h.symm⟩
  | cons c cs =>
    simp only [expandCallsAt_cons] at h
    split at h
    · simp at h
    · rename_i newArgs hna
      obtain ⟨rs, rfl, h1⟩ := replaceM4List_subst (frm := c.argStrs) (by
        intro a ha
        simp only [IfCallData.argStrs, List.mem_map] at ha
        obtain ⟨p, hpm, rfl⟩ := ha
        exact hc c (by simp) p hpm) hna
      split at h
      · rename_i m1 hm1
        obtain ⟨o, h2, h3⟩ := add_out m0 hp fuel hT hm1
        obtain ⟨os, h4, h5⟩ := calls_out m0 hp fuel cs (fun d hd => hc d (by simp [hd]))
          (by rw [add_template fuel hm1, hT]) h
        exact ⟨o ++ os, .cons h1 h2 h4, by rw [insertAll_append, ← h3, h5]⟩
      · rename_i r hr; exact absurd h (hr m')
termination_by (fuel, cs.length + 1)
end

/-- Looking a symbol up after a list of insertions. -/
theorem lookUp_insertAll (mod : Str) (out : List (DeclFlavor × Str)) (m : Maps) (x : Str)
    (fl : DeclFlavor) :
    (insertAll mod out m).lookUpDecl x fl =
      (m.lookUpDecl x fl).or (if (fl, x) ∈ out then some mod else none) := by
  induction out generalizing m with
  | nil => simp [insertAll]
  | cons d out ih =>
    have : insertAll mod (d :: out) m = insertAll mod out (m.insertDecl d.2 mod d.1) := rfl
    rw [this, ih, Maps.lookUpDecl_insertDecl]
    obtain ⟨f, y⟩ := d
    by_cases h : y = x ∧ f = fl
    · obtain ⟨rfl, rfl⟩ := h
      cases m.lookUpDecl y f <;> simp
    · have h' : ¬(fl, x) = (f, y) := by
        intro e; simp at e; exact h ⟨e.2.symm, e.1.symm⟩
      simp [h, h']

/-- C19. If the expansion of a template call succeeds (in a table whose references are `$1`,
`$2`, ...), the symbols that become known are exactly those the specification `Expands`
lists: they are inserted in that order (callees before callers) under the calling module, and
symbols that were known before keep their module. -/
theorem C19_declares_exactly {name : Str} {args : List Str} {mod : Str} {m m' : Maps}
    (hp : PlainTable m) (h : expandTemplate name args mod m = .done .success m') :
    ∃ out, Expands m name args out ∧
      m' = out.foldl (fun m d => m.insertDecl d.2 mod d.1) m ∧
      ∀ x fl, m'.lookUpDecl x fl =
        (m.lookUpDecl x fl).or (if (fl, x) ∈ out then some mod else none) := by
  obtain ⟨out, h1, h2⟩ := add_out m hp _ rfl h
  exact ⟨out, h1, h2, by intro x fl; rw [h2]; exact lookUp_insertAll ..⟩

/-- The hypotheses of C19 are met by the second part of the table above: `d` calls `e`. -/
def exPlainMaps : Maps := { template := exLoopMaps.template.drop 3 }

example : PlainTable exPlainMaps := by
  have key : ∀ k t, exPlainMaps.template.find k = some t →
      (∀ d ∈ t.declarations, ∃ vs, Refs d.2 vs) ∧ ∀ c ∈ t.calls, ∀ a ∈ c.args, ∃ vs, Refs a.1 vs := by
    intro k t h
    have hm := Assoc.find_some_mem h
    have e1 : IsNumeral cs!"1" 1 cs!"_t" := ⟨by decide, by decide, by decide, by simp; decide⟩
    have e2 : IsNumeral cs!"2" 2 cs!"_r" := ⟨by decide, by decide, by decide, by simp; decide⟩
    have e3 : IsNumeral cs!"2" 2 cs!"_d" := ⟨by decide, by decide, by decide, by simp; decide⟩
    have r1 : Refs cs!"$1_t" [1] := .ref e1 (by decide) (.char (by decide) (.char (by decide) .nil))
    have r2 : Refs cs!"$2_r" [2] := .ref e2 (by decide) (.char (by decide) (.char (by decide) .nil))
    have r3 : Refs cs!"$2_d" [2] := .ref e3 (by decide) (.char (by decide) (.char (by decide) .nil))
    have r4 : Refs cs!"z" [] := .char (by decide) .nil
    simp only [exPlainMaps, exLoopMaps, List.drop_succ_cons, List.drop_zero, List.mem_cons,
      List.not_mem_nil, or_false, Prod.mk.injEq] at hm
    rcases hm with ⟨-, rfl⟩ | ⟨-, rfl⟩
    · simp; exact ⟨⟨_, r2⟩, ⟨_, r3⟩, ⟨_, r4⟩⟩
    · simp; exact ⟨_, r1⟩
  intro name
  unfold Maps.templateDecls Maps.templateCalls Maps.lookUpTemplate
  cases h : exPlainMaps.template.find name with
  | none => simp
  | some t => exact key name t h

example : expandTemplate cs!"d" [cs!"foo", cs!"bar"] cs!"mod" exPlainMaps =
    .done .success { exPlainMaps with type := [(cs!"bar_d_t", cs!"mod")], role := [(cs!"bar_r", cs!"mod")] } := by
  decide +kernel

theorem argsSubst_unique {args as r r' : List Str} (h : ArgsSubst args as r)
    (h' : ArgsSubst args as r') : r = r' := by
  induction h generalizing r' with
  | nil => cases h'; rfl
  | cons h1 _ ih => cases h' with
    | cons h1' h2' => rw [C20_result_unique h1 h1', ih h2']

theorem declsSubst_unique {args : List Str} {as r r' : List (DeclFlavor × Str)}
    (h : DeclsSubst args as r) (h' : DeclsSubst args as r') : r = r' := by
  induction h generalizing r' with
  | nil => cases h'; rfl
  | cons h1 _ ih => cases h' with
    | cons h1' h2' => rw [C20_result_unique h1 h1', ih h2']

mutual
/-- The list of declarations of an expansion is determined by the table and the arguments. -/
theorem C19_expansion_unique {m : Maps} {name : Str} {args : List Str}
    {o o' : List (DeclFlavor × Str)} : Expands m name args o → Expands m name args o' → o = o'
  | .mk h1 h2, .mk h1' h2' => by rw [expandsCalls_unique h1 h1', declsSubst_unique h2 h2']
theorem expandsCalls_unique {m : Maps} {args : List Str} {cs : List IfCallData}
    {o o' : List (DeclFlavor × Str)} : ExpandsCalls m args cs o → ExpandsCalls m args cs o' → o = o'
  | .nil, .nil => rfl
  | .cons h1 h2 h3, .cons h1' h2' h3' => by
    have := argsSubst_unique h1 h1'
    subst this
    rw [C19_expansion_unique h2 h2', expandsCalls_unique h3 h3']
end

/-- Undefined behaviour that the model exposes: a template whose body makes a call without
arguments crashes when it is expanded (`replace_m4_list` dereferences NULL). -/
theorem C18_false_call_without_args :
    expandTemplate cs!"a" [cs!"foo"] cs!"mod"
      { template := [(cs!"a", { declarations := [], calls := [{ name := cs!"b", args := [] }] })] } = .ub := by
  decide +kernel

/-- ... and so does one that passes `$*` on to a template that uses its first argument
(`strlen` of a NULL string). -/
theorem C18_false_star_argument :
    expandTemplate cs!"a" [cs!"foo"] cs!"mod"
      { template := [(cs!"a", { declarations := [], calls := [{ name := cs!"b", args := [(cs!"$*", false)] }] }),
                     (cs!"b", { declarations := [(.type, cs!"$1_t")], calls := [] })] } = .ub := by
  decide +kernel

end Selint
