import Verif.Lemmas.StringList
import Verif.Model.ParseInMemory
import Verif.Spec.ParseInMemory
/-! # Who owns what while the parser's actions run -/

namespace Selint

open Spec

theorem perm_count {ps qs : List Addr} (h : ∀ a, ps.count a = qs.count a) : ps.Perm qs :=
  List.perm_iff_count.2 h

/-- Two lists made of the same pieces. -/
macro "pieces" : tactic =>
  `(tactic| (refine perm_count fun a => ?_
             (simp only [List.count_append, List.count_cons, List.count_nil]) <;> omega))

namespace Spec.Owns

variable {m m' : Mem} {R R' ps qs : List Addr}

theorem perm (h : Owns m R) (hp : R.Perm R') : Owns m R' :=
  ⟨hp.nodup_iff.1 h.nodup, fun q hq => h.below q (hp.mem_iff.2 hq),
    fun q hq => h.only q fun hq' => hq (hp.mem_iff.1 hq')⟩

theorem bounded (h : Owns m R) : Bounded m := fun q hq =>
  h.only q fun hq' => by have := h.below q hq'; omega

theorem length_le (h : Owns m R) : R.length ≤ m.top := by
  have := List.Nodup.length_le_of_subset h.nodup (l₂ := List.range m.top)
    (fun q hq => List.mem_range.2 (h.below q hq))
  simpa using this

theorem malloc (h : Owns m R) (o : Obj) : Owns (m.malloc o).2 ([m.top] ++ R) := by
  refine ⟨?_, ?_, ?_⟩
  · simp only [List.cons_append, List.nil_append, List.nodup_cons]
    exact ⟨fun hq => by have := h.below _ hq; omega, h.nodup⟩
  · intro q hq
    simp only [List.cons_append, List.nil_append, List.mem_cons] at hq
    simp only [malloc_top]
    rcases hq with rfl | hq
    · omega
    · have := h.below q hq; omega
  · intro q hq
    simp only [List.cons_append, List.nil_append, List.mem_cons, not_or] at hq
    rw [malloc_obj, if_neg hq.1, h.only q hq.2]

theorem dropped (h : Owns m (ps ++ R)) : Owns (dropped m ps) R := by
  refine ⟨(List.nodup_append.1 h.nodup).2.1, fun q hq => h.below q (by simp [hq]), ?_⟩
  intro q hq
  rw [dropped_obj]
  split
  · rfl
  · rename_i hq'; exact h.only q (by simp [hq, hq'])

theorem disjoint (h : Owns m (ps ++ R)) : ∀ q ∈ R, q ∉ ps := fun q hq hq' =>
  (List.nodup_append.1 h.nodup).2.2 q hq' q hq rfl

theorem eqOn_dropped (h : Owns m (ps ++ R)) : EqOn m (Spec.dropped m ps) R :=
  Selint.eqOn_dropped m h.disjoint

end Spec.Owns

theorem eqOn_malloc {m : Mem} {R : List Addr} (h : Owns m R) (o : Obj) :
    EqOn m (m.malloc o).2 R := by
  intro q hq
  have := h.below q hq
  rw [malloc_obj, if_neg (by omega)]

theorem malloc_self (m : Mem) (o : Obj) : (m.malloc o).2.obj m.top = some o := by
  simp [malloc_obj]

theorem EqOn.trans {m₁ m₂ m₃ : Mem} {R : List Addr} (h : EqOn m₁ m₂ R) (h' : EqOn m₂ m₃ R) :
    EqOn m₁ m₃ R := fun q hq => (h' q hq).trans (h q hq)

theorem EqOn.refl (m : Mem) (R : List Addr) : EqOn m m R := fun _ _ => rfl

theorem EqOn.right {m m' : Mem} {ps R : List Addr} (h : EqOn m m' (ps ++ R)) : EqOn m m' R :=
  h.mono (by simp +contextual)

theorem EqOn.left {m m' : Mem} {ps R : List Addr} (h : EqOn m m' (ps ++ R)) : EqOn m m' ps :=
  h.mono (by simp +contextual)

/-- The memory after an assignment. -/
def wrote (m : Mem) (p : Addr) (o : Obj) : Mem :=
  ⟨fun q => if q = p then some o else m.obj q, m.top⟩

theorem write_wrote {m : Mem} {p : Addr} {o : Obj} (h : m.obj p ≠ none) :
    m.write p o = .ok (wrote m p o) := write_ok h

theorem wrote_self (m : Mem) (p : Addr) (o : Obj) : (wrote m p o).obj p = some o := by
  simp [wrote]

theorem wrote_other (m : Mem) {p q : Addr} (o : Obj) (h : q ≠ p) :
    (wrote m p o).obj q = m.obj q := by
  simp [wrote, h]

theorem eqOn_wrote {m : Mem} {p : Addr} {ps : List Addr} (h : p ∉ ps) (o : Obj) :
    EqOn m (wrote m p o) ps := fun q hq => wrote_other m o (by rintro rfl; exact h hq)

theorem Spec.Owns.wrote {m : Mem} {R : List Addr} (h : Owns m R) {p : Addr} (hp : p ∈ R) (o : Obj) :
    Owns (wrote m p o) R :=
  ⟨h.nodup, h.below, fun q hq => by
    rw [wrote_other m o (by rintro rfl; exact hq hp), h.only q hq]⟩

/-! ## Productions with a value -/

/-- A production that leaves the value `A` in memory, and nothing else. -/
def Makes {α : Type} (f : Mem → Res (α × Mem)) (A : Mem → α → List Addr → Prop) : Prop :=
  ∀ m R, Owns m R → ∃ a m' qs, f m = .ok (a, m') ∧ A m' a qs ∧ Owns m' (qs ++ R) ∧ EqOn m m' R

/-- A production that leaves nothing in memory. -/
def Clean (f : Mem → Res Mem) : Prop :=
  ∀ m R, Owns m R → ∃ m', f m = .ok m' ∧ Owns m' R ∧ EqOn m m' R

/-- The string `s`. -/
def Word (s : Str) (m : Mem) (a : Addr) (qs : List Addr) : Prop :=
  qs = [a] ∧ m.obj a = some (.bytes s)

/-- The list of the strings `l`. -/
def Words (l : List Str) (m : Mem) (p : Option Addr) (qs : List Addr) : Prop := NamesAt m p l qs

/-- The list of the strings `l`, with marks. -/
def Marked (l : List (Str × Bool)) (m : Mem) (p : Option Addr) (qs : List Addr) : Prop :=
  SlAt m p l qs

theorem Word.congr {s m m' a qs} (h : Word s m a qs) (he : EqOn m m' qs) : Word s m' a qs := by
  obtain ⟨rfl, h⟩ := h
  exact ⟨rfl, by rw [he a (by simp)]; exact h⟩

theorem free_word {m : Mem} {a : Addr} {s : Str} {R : List Addr} (h : m.obj a = some (.bytes s))
    (ho : Owns m ([a] ++ R)) :
    ∃ m', m.free (some a) = .ok m' ∧ Owns m' R ∧ EqOn m m' R :=
  ⟨_, free_ok (by simp [h]), ho.dropped, ho.eqOn_dropped⟩

theorem free_list {m : Mem} {p : Option Addr} {l : List (Str × Bool)} {qs R : List Addr}
    (h : SlAt m p l qs) (ho : Owns m (qs ++ R)) :
    ∃ m', Mem.freeStringList m.top m p = .ok m' ∧ Owns m' R ∧ EqOn m m' R := by
  refine ⟨_, freeStringList_eq h ?_, ho.dropped, ho.eqOn_dropped⟩
  have := ho.length_le
  have := h.length_le
  simp only [List.length_append] at *
  omega

theorem builds_malloc (s : Str) : Makes (fun m => .ok (m.malloc (.bytes s))) (Word s) :=
  fun m _ h => ⟨m.top, _, [m.top], rfl, ⟨rfl, malloc_self m _⟩, h.malloc _, eqOn_malloc h _⟩

theorem builds_token (s : Str) : Makes (buildToken s) (Word s) := builds_malloc s

/-- One production after another. -/
theorem Makes.then {α β : Type} {f : Mem → Res (α × Mem)} {A : Mem → α → List Addr → Prop}
    {F : Mem → Res (β × Mem)} {B : Mem → β → List Addr → Prop} (hf : Makes f A)
    (hg : ∀ m₀ a m qs R, f m₀ = .ok (a, m) → A m a qs → Owns m (qs ++ R) →
      ∃ b m' rs, F m₀ = .ok (b, m') ∧ B m' b rs ∧ Owns m' (rs ++ R) ∧ EqOn m m' R) :
    Makes F B := by
  intro m R h
  obtain ⟨a, m₁, qs, e₁, hA, h₁, he₁⟩ := hf m R h
  obtain ⟨b, m₂, rs, e₂, hB, h₂, he₂⟩ := hg m a m₁ qs R e₁ hA h₁
  exact ⟨b, m₂, rs, e₂, hB, h₂, he₁.trans he₂⟩

/-- A production whose value is freed. -/
theorem Makes.clean {α : Type} {f : Mem → Res (α × Mem)} {A : Mem → α → List Addr → Prop}
    {F : Mem → Res Mem} (hf : Makes f A)
    (hg : ∀ m₀ a m qs R, f m₀ = .ok (a, m) → A m a qs → Owns m (qs ++ R) →
      ∃ m', F m₀ = .ok m' ∧ Owns m' R ∧ EqOn m m' R) :
    Clean F := by
  intro m R h
  obtain ⟨a, m₁, qs, e₁, hA, h₁, he₁⟩ := hf m R h
  obtain ⟨m₂, e₂, h₂, he₂⟩ := hg m a m₁ qs R e₁ hA h₁
  exact ⟨m₂, e₂, h₂, he₁.trans he₂⟩

theorem Clean.then {f g : Mem → Res Mem} (hf : Clean f) (hg : Clean g) :
    Clean (fun m => do g (← f m)) := by
  intro m R h
  obtain ⟨m₁, e₁, h₁, he₁⟩ := hf m R h
  obtain ⟨m₂, e₂, h₂, he₂⟩ := hg m₁ R h₁
  exact ⟨m₂, by simp only [e₁, Res.bind_ok, e₂], h₂, he₁.trans he₂⟩

theorem Clean.of_eq {f g : Mem → Res Mem} (hf : Clean f) (he : ∀ m, g m = f m) : Clean g := by
  rw [funext he]
  exact hf

theorem res_assoc {α β γ : Type} (x : Res α) (f : α → Res β) (g : β → Res γ) :
    (x >>= f) >>= g = x >>= fun a => f a >>= g := by
  cases x <;> rfl

theorem clean_nothing : Clean (fun m => .ok m) := fun m _ h => ⟨m, rfl, h, EqOn.refl m _⟩

theorem SlItem.builds (i : SlItem) : Makes i.build (Word i.value) := by
  cases i with
  | word s => exact builds_malloc s
  | quoted s => exact builds_malloc s
  | minus s =>
    intro m R h
    have h₁ := h.malloc (.bytes s)
    have h₂ := h₁.malloc (.bytes ('-' :: s))
    have e₁ := malloc_self m (.bytes s)
    have e₂ : ((m.malloc (.bytes s)).2.malloc (.bytes ('-' :: s))).2.obj m.top =
        some (.bytes s) := by
      rw [malloc_obj, if_neg (by simp), e₁]
    obtain ⟨m', e₃, h₃, he₃⟩ := free_word e₂
      (R := [m.top + 1] ++ R) (h₂.perm (by simp only [malloc_top]; pieces))
    refine ⟨m.top + 1, m', [m.top + 1], ?_, ⟨rfl, ?_⟩, h₃, ?_⟩
    · have e₁' := get_eq e₁ (f := Obj.str?) rfl
      simp only [Mem.malloc] at e₁' e₃
      simp only [SlItem.build, Mem.malloc, e₁', Res.bind_ok, e₃]
    · rw [he₃ _ (by simp)]
      simp [malloc_obj, SlItem.value]
    · exact ((eqOn_malloc h _).trans (eqOn_malloc h₁ _).right).trans he₃.right

/-- The cell that takes over a string. -/
theorem consume_word {m : Mem} {a : Addr} {s : Str} {qs R : List Addr} (b : Bool)
    (h : Word s m a qs) (ho : Owns m (qs ++ R)) :
    ∃ rs, SlAt (m.malloc (.sl ⟨some a, none, b⟩)).2 (some m.top) [(s, b)] rs ∧
      Owns (m.malloc (.sl ⟨some a, none, b⟩)).2 (rs ++ R) ∧
      EqOn m (m.malloc (.sl ⟨some a, none, b⟩)).2 R := by
  obtain ⟨rfl, h⟩ := h
  have hlt := ho.below a (by simp)
  refine ⟨[m.top, a], .cons (malloc_self m _) ?_ .nil (by simp) (by simp), ?_,
    (eqOn_malloc ho _).right⟩
  · rw [malloc_obj, if_neg (by omega), h]
  · exact (ho.malloc _).perm (by pieces)

/-- A new list of one word. -/
theorem slFromStr_word {m : Mem} {R : List Addr} (s : Str) (ho : Owns m R) :
    ∃ q m' rs, m.slFromStr s = (q, m') ∧ SlAt m' (some q) [(s, false)] rs ∧ Owns m' (rs ++ R) ∧
      EqOn m m' R := by
  have h₁ := ho.malloc (.bytes s)
  obtain ⟨rs, hs, h₂, he⟩ := consume_word false (s := s) (a := m.top) (qs := [m.top])
    ⟨rfl, malloc_self m (.bytes s)⟩ h₁
  exact ⟨m.top + 1, _, rs, rfl, hs, h₂, (eqOn_malloc ho _).trans he⟩

/-- Two lists are joined. -/
theorem concat_lists {m : Mem} {p q : Option Addr} {l k : List (Str × Bool)}
    {ps qs R : List Addr} (hp : SlAt m p l ps) (hq : SlAt m q k qs)
    (ho : Owns m (ps ++ qs ++ R)) :
    ∃ r m', m.concatStringLists m.top p q = .ok (r, m') ∧ SlAt m' r (l ++ k) (ps ++ qs) ∧
      Owns m' (ps ++ qs ++ R) ∧ EqOn m m' R := by
  have hnd := ho.nodup
  have hlen := ho.length_le
  have hl := hp.length_le
  simp only [List.length_append] at hlen
  obtain ⟨r, m', e, hs, hsame, htop, _⟩ := concat_spec hp hq (by grind) (fuel := m.top) (by omega)
  refine ⟨r, m', e, hs, ⟨hnd, by rw [htop]; exact ho.below, ?_⟩, ?_⟩
  · intro x hx
    rw [hsame x (by grind), ho.only x hx]
  · intro x hx
    exact hsame x (by grind)

theorem appendWord_spec {m : Mem} {p : Option Addr} {l : List Str} {w : Addr} {s : Str}
    {ps qs R : List Addr} (hp : Words l m p ps) (hw : Word s m w qs)
    (ho : Owns m (ps ++ qs ++ R)) :
    ∃ r m' rs, m.appendWord p w = .ok (r, m') ∧ Words (l ++ [s]) m' r rs ∧ Owns m' (rs ++ R) ∧
      EqOn m m' R := by
  obtain ⟨rfl, hw⟩ := hw
  obtain ⟨q, m₁, rs, e₁, hs₁, h₁, he₁⟩ := slFromStr_word s ho
  have hp₁ : SlAt m₁ p _ ps := hp.congr (he₁.left.left)
  obtain ⟨r, m₂, e₂, hs₂, h₂, he₂⟩ := concat_lists hp₁ hs₁ (R := [w] ++ R)
    (h₁.perm (by pieces))
  have hw₂ : m₂.obj w = some (.bytes s) := by
    rw [he₂ w (by simp), he₁ w (by simp), hw]
  obtain ⟨m₃, e₃, h₃, he₃⟩ := free_word hw₂ (R := ps ++ rs ++ R) (h₂.perm (by pieces))
  refine ⟨r, m₃, ps ++ rs, ?_, ?_, h₃, ?_⟩
  · simp only [Mem.appendWord, get_eq hw (f := Obj.str?) rfl, Res.bind_ok, e₁, e₂, e₃]
  · have := SlAt.congr hs₂ he₃.left
    simpa [Words, NamesAt] using this
  · exact (he₁.right.trans he₂.right).trans he₃.right

theorem appendWords_spec {ι : Type} {build : ι → Mem → Res (Addr × Mem)} {value : ι → Str}
    (hb : ∀ i, Makes (build i) (Word (value i))) (is : List ι) :
    ∀ {m : Mem} {p : Option Addr} {l : List Str} {ps R : List Addr}, Words l m p ps →
      Owns m (ps ++ R) →
      ∃ r m' rs, Mem.appendWords build is m p = .ok (r, m') ∧ Words (l ++ is.map value) m' r rs ∧
        Owns m' (rs ++ R) ∧ EqOn m m' R := by
  induction is with
  | nil => intro m p l ps R hp ho; exact ⟨p, m, ps, rfl, by simpa using hp, ho, EqOn.refl _ _⟩
  | cons i is ih =>
    intro m p l ps R hp ho
    obtain ⟨w, m₁, qs, e₁, hw, h₁, he₁⟩ := hb i m _ ho
    obtain ⟨r, m₂, rs, e₂, hr, h₂, he₂⟩ := appendWord_spec (SlAt.congr hp he₁.left) hw
      (R := R) (h₁.perm (by pieces))
    obtain ⟨r', m₃, rs', e₃, hr', h₃, he₃⟩ := ih hr h₂
    refine ⟨r', m₃, rs', ?_, ?_, h₃, (he₁.right.trans he₂).trans he₃⟩
    · simp only [Mem.appendWords, e₁, Res.bind_ok, e₂, e₃]
    · simpa using hr'

theorem buildWords_spec {ι : Type} {build : ι → Mem → Res (Addr × Mem)} {value : ι → Str}
    (hb : ∀ i, Makes (build i) (Word (value i))) (first : ι) (rest : List ι) :
    Makes (Mem.buildWords build first rest) (Words (value first :: rest.map value)) := by
  refine (hb first).then (fun m₀ w m qs R e₀ hw ho => ?_)
  obtain ⟨rs, hs, h₁, he₁⟩ := consume_word false hw ho
  obtain ⟨r, m₂, rs', e₂, hr, h₂, he₂⟩ := appendWords_spec hb rest (l := [value first]) hs h₁
  refine ⟨r, m₂, rs', ?_, by simpa using hr, h₂, he₁.trans he₂⟩
  simp only [Mem.buildWords, e₀, Res.bind_ok]
  exact e₂

/-- A list of one word that takes over its string. -/
theorem consume_builds {f : Mem → Res (Addr × Mem)} {s : Str} (hf : Makes f (Word s)) :
    Makes (fun m => do
      let (w, m) ← f m
      let (p, m) := m.slFromStrConsume (some w)
      .ok (some p, m)) (Words [s]) := by
  refine hf.then (fun m₀ w m qs R e₀ hw ho => ?_)
  obtain ⟨rs, hs, h₁, he₁⟩ := consume_word false hw ho
  exact ⟨some m.top, _, rs, by simp only [e₀, Res.bind_ok]; rfl, hs, h₁, he₁⟩

theorem slFromStr_builds (s : Str) :
    Makes (fun m => let (p, m) := m.slFromStr s; .ok (some p, m)) (Words [s]) := by
  intro m R ho
  obtain ⟨q, m₁, rs, e₁, hs₁, h₁, he₁⟩ := slFromStr_word s ho
  exact ⟨some q, m₁, rs, by simp only [e₁], hs₁, h₁, he₁⟩

theorem putTilda_builds {f : Mem → Res (Option Addr × Mem)} {l : List Str}
    (hf : Makes f (Words l)) :
    Makes (fun m => do
      let (p, m) ← f m
      m.putTilda p) (Words (cs!"~" :: l)) := by
  refine hf.then (fun m₀ p m qs R e₀ hp ho => ?_)
  obtain ⟨q, m₁, rs, e₁, hs₁, h₁, he₁⟩ := slFromStr_word cs!"~" ho
  cases hs₁ with
  | @cons _ a _ _ _ _ ps hq ha hn hq' ha' =>
    cases hn
    have hnd := h₁.nodup
    refine ⟨some q, wrote m₁ q (.sl ⟨some a, p, false⟩), q :: a :: qs, ?_, ?_, ?_, ?_⟩
    · simp only [e₀, Mem.putTilda, e₁, setNext_ok hq, Res.bind_ok]
      rfl
    · refine .cons (wrote_self _ _ _) ?_ (SlAt.congr hp ?_) (by grind) (by grind)
      · rw [wrote_other _ _ (by grind), ha]
      · exact he₁.left.trans (eqOn_wrote (by grind) _)
    · exact (h₁.wrote (by simp) _).perm (by pieces)
    · exact he₁.right.trans (eqOn_wrote (by grind) _)

theorem SList.builds (l : SList) : Makes l.build (Words l.value) := by
  induction l with
  | braces first rest => exact buildWords_spec SlItem.builds first rest
  | tilda l ih => exact putTilda_builds ih
  | item i => exact consume_builds i.builds
  | star => exact slFromStr_builds _

theorem XItem.builds (i : XItem) : Makes i.build (Word i.value) := by
  cases i <;> exact builds_malloc _

theorem XList.builds (l : XList) : Makes l.build (Words l.value) := by
  induction l with
  | braces first rest => exact buildWords_spec XItem.builds first rest
  | tilda l ih => exact putTilda_builds ih
  | item i => exact consume_builds i.builds

theorem CommaList.builds (l : CommaList) : Makes l.build (Words l.value) := by
  have := buildWords_spec (value := fun s => s) builds_token l.first l.rest
  rw [List.map_id'] at this
  exact this

theorem Arg.builds (a : Arg) : Makes a.build (Words a.value) := by
  cases a with
  | xperm l => exact l.builds
  | quoted s => exact consume_builds (builds_malloc s)
  | words first rest => exact buildWords_spec SlItem.builds first rest
  | empty => exact slFromStr_builds _

theorem ArgCont.append_spec (c : ArgCont) {m : Mem} {p : Option Addr} {l : List (Str × Bool)}
    {ps R : List Addr} (hp : Marked l m p ps) (ho : Owns m (ps ++ R)) :
    ∃ r m' rs, c.append m p = .ok (r, m') ∧ Marked (l ++ c.value) m' r rs ∧ Owns m' (rs ++ R) ∧
      EqOn m m' R := by
  cases c with
  | comma a =>
    obtain ⟨q, m₁, qs, e₁, hq, h₁, he₁⟩ := a.builds m _ ho
    obtain ⟨r, m₂, e₂, hr, h₂, he₂⟩ := concat_lists (SlAt.congr hp he₁.left) hq
      (R := R) (h₁.perm (by pieces))
    exact ⟨r, m₂, _, by simp only [ArgCont.append, e₁, Res.bind_ok, e₂], hr, h₂,
      he₁.right.trans he₂⟩
  | space i =>
    obtain ⟨w, m₁, qs, e₁, hw, h₁, he₁⟩ := i.builds m _ ho
    obtain ⟨rs, hs, h₂, he₂⟩ := consume_word true hw h₁
    obtain ⟨r, m₃, e₃, hr, h₃, he₃⟩ := concat_lists
      (SlAt.congr hp (he₁.left.trans he₂.left)) hs (R := R) (h₂.perm (by pieces))
    refine ⟨r, m₃, _, ?_, hr, h₃, (he₁.right.trans he₂.right).trans he₃⟩
    simp only [ArgCont.append, e₁, Res.bind_ok]
    exact e₃

theorem appendArgs_spec (cs : List ArgCont) :
    ∀ {m : Mem} {p : Option Addr} {l : List (Str × Bool)} {ps R : List Addr}, Marked l m p ps →
      Owns m (ps ++ R) →
      ∃ r m' rs, appendArgs cs m p = .ok (r, m') ∧
        Marked (l ++ cs.flatMap ArgCont.value) m' r rs ∧ Owns m' (rs ++ R) ∧ EqOn m m' R := by
  induction cs with
  | nil => intro m p l ps R hp ho; exact ⟨p, m, ps, rfl, by simpa using hp, ho, EqOn.refl _ _⟩
  | cons c cs ih =>
    intro m p l ps R hp ho
    obtain ⟨r, m₂, rs, e₂, hr, h₂, he₂⟩ := c.append_spec hp ho
    obtain ⟨r', m₃, rs', e₃, hr', h₃, he₃⟩ := ih hr h₂
    exact ⟨r', m₃, rs', by simp only [appendArgs, e₂, Res.bind_ok, e₃], by simpa using hr', h₃,
      he₂.trans he₃⟩

theorem Args.builds (a : Args) : Makes a.build (Marked a.value) :=
  a.first.builds.then (fun m₀ p m qs R e₀ hp ho => by
    simp only [Args.build, e₀, Res.bind_ok]
    exact appendArgs_spec a.rest hp ho)

theorem buildArgs_builds (a : Option Args) :
    Makes (buildArgs a) (Marked ((a.map Args.value).getD [])) := by
  cases a with
  | none => exact fun m R ho => ⟨none, m, [], rfl, .nil, ho, EqOn.refl _ _⟩
  | some a => exact a.builds

/-! ## Ranges -/

theorem joinStrings_spec {m : Mem} {a b : Addr} {s t : Str} {R : List Addr} (c : Char)
    (ha : m.obj a = some (.bytes s)) (hb : m.obj b = some (.bytes t))
    (ho : Owns m ([a] ++ [b] ++ R)) :
    ∃ d m' rs, m.joinStrings c a b = .ok (d, m') ∧ Word (s ++ c :: t) m' d rs ∧
      Owns m' (rs ++ R) ∧ EqOn m m' R := by
  have h₁ := ho.malloc (.bytes (s ++ c :: t))
  have he₁ := eqOn_malloc ho (.bytes (s ++ c :: t))
  have ha₁ := (he₁ a (by simp)).trans ha
  have hb₁ := (he₁ b (by simp)).trans hb
  obtain ⟨m₂, e₂, h₂, he₂⟩ := free_word ha₁ (R := [b] ++ [m.top] ++ R) (h₁.perm (by pieces))
  have hb₂ := (he₂ b (by simp)).trans hb₁
  obtain ⟨m₃, e₃, h₃, he₃⟩ := free_word hb₂ (R := [m.top] ++ R) (h₂.perm (by pieces))
  refine ⟨m.top, m₃, [m.top], ?_, ⟨rfl, ?_⟩, h₃, ?_⟩
  · simp only [Mem.joinStrings, get_eq ha (f := Obj.str?) rfl, get_eq hb (f := Obj.str?) rfl,
      Res.bind_ok]
    simp only [Mem.malloc] at e₂ ⊢
    simp only [e₂, Res.bind_ok, e₃]
  · rw [he₃ _ (by simp), he₂ _ (by simp), malloc_self]
  · exact (he₁.right.trans he₂.right).trans he₃.right

/-- Two words and something that joins them. -/
theorem join_builds {f g : Mem → Res (Addr × Mem)} {s t : Str} (c : Char) (hf : Makes f (Word s))
    (hg : Makes g (Word t)) :
    Makes (fun m => do
      let (a, m) ← f m
      let (b, m) ← g m
      m.joinStrings c a b) (Word (s ++ c :: t)) := by
  refine hf.then (fun m₀ a m qs R e₀ ha ho => ?_)
  obtain ⟨b, m₁, rs, e₁, hb, h₁, he₁⟩ := hg m _ ho
  obtain ⟨rfl, ha₁⟩ := ha.congr he₁.left
  obtain ⟨rfl, hb⟩ := hb
  obtain ⟨d, m₂, rs, e₂, hd, h₂, he₂⟩ := joinStrings_spec c ha₁ hb (R := R) (h₁.perm (by pieces))
  exact ⟨d, m₂, rs, by simp only [e₀, e₁, Res.bind_ok, e₂], hd, h₂, he₁.right.trans he₂⟩

theorem MlsComponent.builds (c : MlsComponent) : Makes c.build (Word c.value) := by
  cases c with
  | one s =>
    refine (builds_malloc s).then (fun m₀ a m qs R e₀ ha ho => ?_)
    simp only [Res.ok.injEq] at e₀
    obtain ⟨rfl, ha⟩ := ha
    have h₁ := ho.malloc (.bytes s)
    have he₁ := eqOn_malloc ho (.bytes s)
    obtain ⟨m₂, e₂, h₂, he₂⟩ := free_word ((he₁ a (by simp)).trans ha) (R := [m.top] ++ R)
      (h₁.perm (by pieces))
    refine ⟨m.top, m₂, [m.top], ?_, ⟨rfl, ?_⟩, h₂, he₁.right.trans he₂.right⟩
    · simp only [MlsComponent.build, e₀, get_eq ha (f := Obj.str?) rfl, Res.bind_ok]
      simp only [Mem.malloc] at e₂ ⊢
      simp only [e₂, Res.bind_ok]
    · rw [he₂ _ (by simp), malloc_self]
      rfl
  | dotted s t => exact join_builds '.' (builds_malloc s) (builds_malloc t)

theorem MlsLevel.builds (l : MlsLevel) : Makes l.build (Word l.value) := by
  cases l with
  | one c => exact c.builds
  | pair c d => exact join_builds ':' c.builds d.builds

theorem MlsRange.builds (r : MlsRange) : Makes r.build (Word r.value) := by
  cases r with
  | one l => exact l.builds
  | range l k => exact join_builds '-' l.builds k.builds

/-! ## Productions that leave nothing behind -/

/-- A word around a production that leaves nothing behind. -/
theorem Clean.around {f : Mem → Res (Addr × Mem)} {g : Mem → Res Mem} {s : Str}
    (hf : Makes f (Word s)) (hg : Clean g) :
    Clean (fun m => do
      let (a, m) ← f m
      let m ← g m
      m.free (some a)) := by
  refine hf.clean (fun m₀ a m qs R e₀ ha ho => ?_)
  obtain ⟨m₁, e₁, h₁, he₁⟩ := hg m _ ho
  obtain ⟨rfl, ha'⟩ := ha.congr he₁.left
  obtain ⟨m₂, e₂, h₂, he₂⟩ := free_word ha' h₁
  exact ⟨m₂, by simp only [e₀, e₁, Res.bind_ok, e₂], h₂, he₁.right.trans he₂⟩

theorem dropToken_clean (s : Str) : Clean (fun m => m.dropToken s) :=
  Clean.around (builds_malloc s) clean_nothing

/-- Two words that are freed after a production that leaves nothing behind. -/
theorem Clean.around₂ {f₁ f₂ : Mem → Res (Addr × Mem)} {g : Mem → Res Mem} {s t : Str}
    (hf₁ : Makes f₁ (Word s)) (hf₂ : Makes f₂ (Word t)) (hg : Clean g) :
    Clean (fun m => do
      let (a, m) ← f₁ m
      let (b, m) ← f₂ m
      let m ← g m
      let m ← m.free (some a)
      m.free (some b)) := by
  refine hf₁.clean (fun m₀ a m qs R e₀ ha ho => ?_)
  obtain ⟨b, m₁, rs, e₁, hb, h₁, he₁⟩ := hf₂ m _ ho
  have ha := ha.congr he₁.left
  obtain ⟨m₂, e₂, h₂, he₂⟩ := hg m₁ _ h₁
  obtain ⟨rfl, ha'⟩ := ha.congr (he₂.right.left)
  obtain ⟨rfl, hb'⟩ := hb.congr he₂.left
  obtain ⟨m₃, e₃, h₃, he₃⟩ := free_word ha' (R := [b] ++ R) (h₂.perm (by pieces))
  obtain ⟨m₄, e₄, h₄, he₄⟩ := free_word ((he₃ b (by simp)).trans hb') h₃
  exact ⟨m₄, by simp only [e₀, e₁, Res.bind_ok, e₂, e₃, e₄], h₄,
    ((he₁.right.trans he₂.right.right).trans he₃.right).trans he₄⟩

theorem MlsRange.clean (r : MlsRange) : Clean r.run := Clean.around r.builds clean_nothing

theorem RawContext.clean (c : RawContext) : Clean c.run := by
  obtain ⟨user, role, type, range⟩ := c
  intro m R ho
  have h₁ := ho.malloc (.bytes user)
  have he₁ := eqOn_malloc ho (.bytes user)
  have h₂ := h₁.malloc (.bytes role)
  have he₂ := eqOn_malloc h₁ (.bytes role)
  have h₃ := h₂.malloc (.bytes type)
  have he₃ := eqOn_malloc h₂ (.bytes type)
  have a₃ : (((m.malloc (.bytes user)).2.malloc (.bytes role)).2.malloc (.bytes type)).2.obj
      m.top = some (.bytes user) := by
    simp only [malloc_obj, malloc_top]
    rw [if_neg (by omega), if_neg (by omega)]; simp
  have b₃ : (((m.malloc (.bytes user)).2.malloc (.bytes role)).2.malloc (.bytes type)).2.obj
      (m.top + 1) = some (.bytes role) := by
    simp only [malloc_obj, malloc_top]
    rw [if_neg (by omega)]; simp
  have c₃ : (((m.malloc (.bytes user)).2.malloc (.bytes role)).2.malloc (.bytes type)).2.obj
      (m.top + 1 + 1) = some (.bytes type) := by
    simp only [malloc_obj, malloc_top]
    simp
  have he : EqOn m (((m.malloc (.bytes user)).2.malloc (.bytes role)).2.malloc (.bytes type)).2
      R := (he₁.trans he₂.right).trans he₃.right.right
  simp only [malloc_top] at h₃
  have key : ∀ m₃ qs, EqOn (((m.malloc (.bytes user)).2.malloc (.bytes role)).2.malloc
      (.bytes type)).2 m₃ ([m.top] ++ [m.top + 1] ++ [m.top + 1 + 1]) →
      Owns m₃ ([m.top] ++ [m.top + 1] ++ [m.top + 1 + 1] ++ qs) →
      ∃ m₄ m₅ m₆, m₃.free (some m.top) = .ok m₄ ∧ m₄.free (some (m.top + 1)) = .ok m₅ ∧
        m₅.free (some (m.top + 1 + 1)) = .ok m₆ ∧ Owns m₆ qs ∧ EqOn m₃ m₆ qs := by
    intro m₃ qs heq ho₃
    have a₃ := (heq m.top (by simp)).trans a₃
    have b₃ := (heq (m.top + 1) (by simp)).trans b₃
    have c₃ := (heq (m.top + 1 + 1) (by simp)).trans c₃
    obtain ⟨m₄, e₄, h₄, he₄⟩ := free_word a₃ (R := [m.top + 1] ++ [m.top + 1 + 1] ++ qs)
      (ho₃.perm (by pieces))
    obtain ⟨m₅, e₅, h₅, he₅⟩ := free_word ((he₄ _ (by simp)).trans b₃)
      (R := [m.top + 1 + 1] ++ qs) (h₄.perm (by pieces))
    obtain ⟨m₆, e₆, h₆, he₆⟩ := free_word ((he₅ _ (by simp)).trans ((he₄ _ (by simp)).trans c₃))
      (R := qs) (h₅.perm (by pieces))
    exact ⟨m₄, m₅, m₆, e₄, e₅, e₆, h₆, (he₄.right.trans he₅.right).trans he₆⟩
  cases range with
  | none =>
    obtain ⟨m₄, m₅, m₆, e₄, e₅, e₆, h₆, he₆⟩ := key _ R (EqOn.refl _ _)
      (h₃.perm (by pieces))
    refine ⟨m₆, ?_, h₆, he.trans he₆⟩
    change ((((m.malloc (.bytes user)).2.malloc (.bytes role)).2.malloc (.bytes type)).2.free
        (some m.top) >>= fun x => x.free (some (m.top + 1)) >>= fun x => x.free (some (m.top + 1 + 1))) = Res.ok m₆
    rw [e₄, Res.bind_ok, e₅, Res.bind_ok, e₆]
  | some r =>
    obtain ⟨d, m₃, rs, e₃, hd, h₃', he₃'⟩ := r.builds _ _ h₃
    obtain ⟨m₄, m₅, m₆, e₄, e₅, e₆, h₆, he₆⟩ := key m₃ (rs ++ R)
      (he₃'.mono (by simp +contextual)) (h₃'.perm (by pieces))
    obtain ⟨rfl, hd'⟩ := hd.congr he₆.left
    obtain ⟨m₇, e₇, h₇, he₇⟩ := free_word hd' h₆
    refine ⟨m₇, ?_, h₇, ((he.trans (he₃'.mono (by simp +contextual))).trans he₆.right).trans he₇⟩
    change (r.build (((m.malloc (.bytes user)).2.malloc (.bytes role)).2.malloc (.bytes type)).2 >>=
        fun x => x.2.free (some m.top) >>= fun y => y.free (some (m.top + 1)) >>=
        fun y => y.free (some (m.top + 1 + 1)) >>= fun y => y.free (some x.1)) = Res.ok m₇
    rw [e₃, Res.bind_ok, e₄, Res.bind_ok, e₅, Res.bind_ok, e₆, Res.bind_ok, e₇]

theorem Context.clean (c : Context) : Clean c.run := by
  cases c with
  | raw c => exact c.clean
  | gen c => exact c.clean
  | gen1 c r => exact c.clean.then r.clean
  | gen2 c r s =>
    exact c.clean.then (Clean.around₂ r.builds s.builds clean_nothing)
  | gen3 c r => exact c.clean.then r.clean

theorem Condition.clean (c : Condition) : Clean c.run := by
  induction c with
  | name s => exact dropToken_clean s
  | not c ih => exact ih
  | and c d ihc ihd => exact ihc.then ihd
  | or c d ihc ihd => exact ihc.then ihd
  | xor c d ihc ihd => exact ihc.then ihd
  | equal c d ihc ihd => exact ihc.then ihd
  | notEqual c d ihc ihd => exact ihc.then ihd
  | paren c ih => exact ih

theorem M4Elem.clean (e : M4Elem) : Clean e.run := by
  cases e with
  | word s => exact dropToken_clean s
  | punct p h => exact clean_nothing

theorem M4String.clean (s : M4String) : Clean s.run := by
  induction s with
  | one e => exact e.clean
  | more e s ih => exact e.clean.then ih
  | quoted e => exact e.clean

theorem PortRange.clean (r : PortRange) : Clean r.run := by
  cases r with
  | numString s => exact dropToken_clean s
  | number s => exact dropToken_clean s
  | range s t => exact Clean.around₂ (builds_malloc s) (builds_malloc t) clean_nothing

theorem DefineContent.clean (c : DefineContent) : Clean c.run := by
  cases c with
  | none => exact clean_nothing
  | empty => exact clean_nothing
  | text s => exact s.clean
  | word s => exact dropToken_clean s

theorem buildMaybe_builds (o : Option Str) :
    Makes (fun m => .ok (buildMaybe o m)) (Word (o.getD [])) := by
  cases o with
  | none => exact builds_malloc []
  | some s => exact builds_malloc s

theorem buildOptRange_builds (o : Option MlsRange) :
    Makes (buildOptRange o) (fun m p qs => OptStrAt m p (o.map MlsRange.value) qs) := by
  cases o with
  | none => exact fun m R ho => ⟨none, m, [], rfl, .none, ho, EqOn.refl _ _⟩
  | some r =>
    refine r.builds.then (fun m₀ a m qs R e₀ ha ho => ?_)
    obtain ⟨rfl, ha⟩ := ha
    exact ⟨some a, m, [a], by simp only [buildOptRange, e₀, Res.bind_ok], .some ha, ho, EqOn.refl _ _⟩

theorem genUser_clean (u v : Option Str) (first : SlItem) (rest : List SlItem) (r s : MlsRange)
    (t : Option MlsRange) : Clean (Silent.run (.genUser u v first rest r s t)) := by
  intro m R ho
  obtain ⟨a, m₁, qa, e₁, ha, h₁, he₁⟩ := buildMaybe_builds u m R ho
  obtain ⟨b, m₂, qb, e₂, hb, h₂, he₂⟩ := buildMaybe_builds v m₁ _ h₁
  obtain ⟨l, m₃, ql, e₃, hl, h₃, he₃⟩ := buildWords_spec SlItem.builds first rest m₂ _ h₂
  obtain ⟨c, m₄, qc, e₄, hc, h₄, he₄⟩ := r.builds m₃ _ h₃
  obtain ⟨d, m₅, qd, e₅, hd, h₅, he₅⟩ := s.builds m₄ _ h₄
  obtain ⟨e, m₆, qe, e₆, he, h₆, he₆⟩ := buildOptRange_builds t m₅ _ h₅
  have ha := ha.congr (m' := m₆) (fun q hq => by
    rw [he₆ q (by simp [hq]), he₅ q (by simp [hq]), he₄ q (by simp [hq]), he₃ q (by simp [hq]),
      he₂ q (by simp [hq])])
  have hb := hb.congr (m' := m₆) (fun q hq => by
    rw [he₆ q (by simp [hq]), he₅ q (by simp [hq]), he₄ q (by simp [hq]), he₃ q (by simp [hq])])
  have hl := SlAt.congr hl (m' := m₆) (fun q hq => by
    rw [he₆ q (by simp [hq]), he₅ q (by simp [hq]), he₄ q (by simp [hq])])
  have hc := hc.congr (m' := m₆) (fun q hq => by
    rw [he₆ q (by simp [hq]), he₅ q (by simp [hq])])
  have hd := hd.congr (m' := m₆) (fun q hq => by rw [he₆ q (by simp [hq])])
  have hR : EqOn m m₆ R := fun q hq => by
    rw [he₆ q (by simp [hq]), he₅ q (by simp [hq]), he₄ q (by simp [hq]), he₃ q (by simp [hq]),
      he₂ q (by simp [hq]), he₁ q hq]
  obtain ⟨rfl, ha'⟩ := ha
  obtain ⟨m₇, e₇, h₇, he₇⟩ := free_word ha' (R := qb ++ ql ++ qc ++ qd ++ qe ++ R)
    (h₆.perm (by pieces))
  obtain ⟨rfl, hb'⟩ := hb.congr (m' := m₇) (fun q hq => he₇ q (by simp [hq]))
  obtain ⟨m₈, e₈, h₈, he₈⟩ := free_word hb' (R := ql ++ qc ++ qd ++ qe ++ R)
    (h₇.perm (by pieces))
  have hl := SlAt.congr hl (m' := m₈) (fun q hq => by
    rw [he₈ q (by simp [hq]), he₇ q (by simp [hq])])
  obtain ⟨m₉, e₉, h₉, he₉⟩ := free_list hl (R := qc ++ qd ++ qe ++ R) (h₈.perm (by pieces))
  obtain ⟨rfl, hc'⟩ := hc.congr (m' := m₉) (fun q hq => by
    rw [he₉ q (by simp [hq]), he₈ q (by simp [hq]), he₇ q (by simp [hq])])
  obtain ⟨m₁₀, e₁₀, h₁₀, he₁₀⟩ := free_word hc' (R := qd ++ qe ++ R) (h₉.perm (by pieces))
  obtain ⟨rfl, hd'⟩ := hd.congr (m' := m₁₀) (fun q hq => by
    rw [he₁₀ q (by simp [hq]), he₉ q (by simp [hq]), he₈ q (by simp [hq]), he₇ q (by simp [hq])])
  obtain ⟨m₁₁, e₁₁, h₁₁, he₁₁⟩ := free_word hd' (R := qe ++ R) (h₁₀.perm (by pieces))
  have he := he.congr (m' := m₁₁) (fun q hq => by
    rw [he₁₁ q (by simp [hq]), he₁₀ q (by simp [hq]), he₉ q (by simp [hq]),
      he₈ q (by simp [hq]), he₇ q (by simp [hq])])
  refine ⟨dropped m₁₁ qe, ?_, h₁₁.dropped, ?_⟩
  · simp only [Res.ok.injEq] at e₁ e₂
    simp only [Silent.run, e₁, e₂, e₃, e₄, e₅, e₆, e₇, e₈, e₉, e₁₀, e₁₁, Res.bind_ok]
    exact free_optStr he
  · intro q hq
    rw [h₁₁.eqOn_dropped q hq, he₁₁ q (by simp [hq]), he₁₀ q (by simp [hq]),
      he₉ q (by simp [hq]), he₈ q (by simp [hq]), he₇ q (by simp [hq]), hR q hq]

theorem Silent.clean (s : Silent) : Clean s.run := by
  cases s with
  | genfscon _ fs path _ c => exact Clean.around₂ (builds_malloc fs) (builds_malloc path) c.clean
  | sid s c => exact Clean.around (builds_malloc s) c.clean
  | portcon s r c =>
    exact (Clean.around (builds_malloc s) (r.clean.then c.clean)).of_eq fun m => by
      simp only [Silent.run, Res.bind_ok, res_assoc]
  | netifcon s c d =>
    exact (Clean.around (builds_malloc s) (c.clean.then d.clean)).of_eq fun m => by
      simp only [Silent.run, Res.bind_ok, res_assoc]
  | nodecon4 a b c =>
    exact ((Clean.around₂ (builds_malloc a) (builds_malloc b) clean_nothing).then
      c.clean).of_eq fun m => by
        simp only [Silent.run, Res.bind_ok]
        rw [res_assoc]
  | nodecon6 a b c =>
    exact ((Clean.around₂ (builds_malloc a) (builds_malloc b) clean_nothing).then
      c.clean).of_eq fun m => by
        simp only [Silent.run, Res.bind_ok]
        rw [res_assoc]
  | fsUse _ _ s c => exact Clean.around (builds_malloc s) c.clean
  | genUser u v first rest r s t => exact genUser_clean u v first rest r s t
  | typebounds s t => exact Clean.around₂ (builds_malloc s) (builds_malloc t) clean_nothing
  | refpolicywarn s => exact s.clean
  | comment => exact clean_nothing

theorem Spec.ListsAt.live {m ls ps} (h : ListsAt m ls ps) : Live m ps := by
  induction h with
  | nil => intro q hq; simp at hq
  | cons h _ ih => exact h.live.append ih

end Selint
