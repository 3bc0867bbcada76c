import Verif.Lemmas.H5
import Verif.Model.Writer
import Verif.Props.Utils
import Verif.Py.NumLemmas
import Verif.Spec.H5
/-
Every writer of a control line works within its entry: it changes no protected node.
-/
namespace S2N
open Py H5 Eznx Writer Spec

/-! ### links -/

theorem walk_entry {c : Scope} {s : H5} (h : Inv c s) (cs : List Str) :
    walk s 0 (c.E :: cs) = walk s c.e cs := by
  obtain ⟨ch, a, h1, h2⟩ := h.entry
  rw [walk, h1]
  simp only [h2]

theorem link_entry {c : Scope} {s : H5} (h : Inv c s) (t : Nat) (n : Str) (cs : List Str) :
    link t s 0 (c.E :: n :: cs) = link t s c.e (n :: cs) := by
  obtain ⟨ch, a, h1, h2⟩ := h.entry
  rw [link, h1]
  simp only [h2]

theorem conf_get_abs {c : Scope} (h : HRef) {name : Str} (ha : absolute name = true) {n : Str}
    {q : List Str} (hc : comps name = c.E :: n :: q) (hx : ¬ c.X n) :
    Conf c (get h name) (fun r => ¬ c.D r.id ∧ r.id ≠ c.e) := by
  apply Conf.lookE
  intro s hs a hr
  have hb : base h name = root := by simp [H5.base, ha]
  rw [hb, hc] at hr
  cases hw : walk s root.id (c.E :: n :: q) with
  | none => simp [hw] at hr
  | some j =>
    simp only [hw] at hr
    injection hr with hr
    subst hr
    rw [show root.id = 0 from rfl, walk_entry hs] at hw
    obtain ⟨w1, _, w3⟩ := walk_scope hs _ hs.notD (fun _ m hm => by
      simp only [List.head?_cons, Option.some.injEq] at hm; rw [← hm]; exact hx) hw
    exact ⟨w1, (w3 (by simp)).1⟩

theorem conf_setLink_abs {c : Scope} (h : HRef) {name : Str} (ha : absolute name = true) {n : Str}
    {q : List Str} (hc : comps name = c.E :: n :: q) (hx : ¬ c.X n) {obj : HRef}
    (hob : ¬ c.D obj.id) (hne : obj.id ≠ c.e) :
    Conf c (setLink h name obj) (fun _ => True) := by
  apply Conf.change
  intro s s' hs hl
  have hb : base h name = root := by simp [H5.base, ha]
  rw [hb, hc] at hl
  cases hxx : s[obj.id]? with
  | none => simp [hxx] at hl
  | some m =>
    simp only [hxx] at hl
    rw [show root.id = 0 from rfl, link_entry hs] at hl
    exact link_scope hob hne _ hs (lt_of_get? hxx) hs.notD (fun _ m hm => by
      simp only [List.head?_cons, Option.some.injEq] at hm; rw [← hm]; exact hx) hl

/-- the handle is below the entry -/
theorem Ok.below {c : Scope} {h : HRef} (ho : Ok c h) (hne : h.id ≠ c.e) :
    ∃ n p, h.path = c.E :: n :: p ∧ ¬ c.X n ∧ Plain n := by
  rcases ho.2 with ⟨e, _⟩ | ⟨_, h⟩
  · exact absurd e hne
  · exact h

theorem comps_ascii_name {c : Scope} (hE : Plain c.E) {h : HRef} (ho : Ok c h)
    (hne : h.id ≠ c.e) (t : Str) (ht : t = [] ∨ ∃ u, t = '/' :: u) :
    ∃ n q, comps (ascii (nameOf h ++ t)) = c.E :: n :: q ∧ ¬ c.X n := by
  obtain ⟨n, p, hp, hx, hn⟩ := Ok.below ho hne
  obtain ⟨q, hq⟩ := comps_nameOf hE hn p h.id t ht
  refine ⟨n, q, ?_, hx⟩
  rw [← hq]
  unfold nameOf
  rw [hp]

/-- a link made at `name-of-group/x` -/
theorem conf_makeLink_abs {c : Scope} (hE : Plain c.E) (h : HRef) {src g : HRef} (hs : Ok c src)
    (hse : src.id ≠ c.e) (hg : Ok c g) (hge : g.id ≠ c.e) (u : Str) :
    Conf c (makeLink h src (nameOf g ++ '/' :: u)) (fun _ => True) := by
  unfold makeLink
  refine Conf.bind' (Q := fun _ => True) ?_ fun _ _ => ?_
  · exact Conf.andThen (conf_hasAttr c _ _) fun _ _ => Conf.onlyIf fun _ => conf_setAttr hs.1 hse _ _
  · obtain ⟨n, q, hq, hx⟩ := comps_ascii_name hE hs hse [] (Or.inl rfl)
    obtain ⟨n', q', hq', hx'⟩ := comps_ascii_name hE hg hge ('/' :: u) (Or.inr ⟨u, rfl⟩)
    rw [List.append_nil] at hq
    have ha : absolute (ascii (nameOf src)) = true := by
      have := absolute_nameOf src []
      rwa [List.append_nil] at this
    refine Conf.bind' (conf_get_abs h ha hq hx) fun r hr => ?_
    exact conf_setLink_abs h (absolute_nameOf g _) hq' hx' hr.1 hr.2

theorem absolute_ascii {t : Str} (h : absolute t = false) (hc : ∀ x ∈ t.head?, x.toNat < 128) :
    absolute (ascii t) = false := by
  cases t with
  | nil => rfl
  | cons x xs =>
    have hx : x.toNat < 128 := hc x rfl
    have : ascii (x :: xs) = x :: ascii xs := by
      unfold ascii
      rw [List.filter_cons]
      simp [hx]
    rw [this]
    have hne : ('/' == x) = false := by
      have : ('/' == x && ([] : Str).isPrefixOf xs) = false := h
      simpa using this
    show ('/' == x && _) = false
    rw [hne]
    rfl

/-- a link made at a relative name -/
theorem conf_makeLink_rel {c : Scope} (hE : Plain c.E) {h src : HRef} (ho : Ok c h) (hs : Ok c src)
    (hse : src.id ≠ c.e) {t : Str} (hr : Rel c h (ascii t)) :
    Conf c (makeLink h src t) (fun _ => True) := by
  unfold makeLink
  refine Conf.bind' (Q := fun _ => True) ?_ fun _ _ => ?_
  · exact Conf.andThen (conf_hasAttr c _ _) fun _ _ => Conf.onlyIf fun _ => conf_setAttr hs.1 hse _ _
  · obtain ⟨n, q, hq, hx⟩ := comps_ascii_name hE hs hse [] (Or.inl rfl)
    rw [List.append_nil] at hq
    have ha : absolute (ascii (nameOf src)) = true := by
      have := absolute_nameOf src []
      rwa [List.append_nil] at this
    refine Conf.bind' (conf_get_abs h ha hq hx) fun r hr' => ?_
    exact conf_setLink ho hr hr'.1 hr'.2

/-! ### names -/

/-- a literal name -/
theorem rel_lit {c : Scope} (h : HRef) {name : Str} (hp : Plain name) (hx : ¬ c.X name) :
    Rel c h name := by
  refine ⟨absolute_single hp.single, fun _ n hn => ?_⟩
  rw [comps_single hp.single] at hn
  simp only [List.head?_cons, Option.some.injEq] at hn
  subst hn
  exact ⟨hx, hp⟩

theorem comps_ne {name : Str} (hp : Plain name) : comps name ≠ [] := by
  rw [comps_single hp.single]; simp

section
variable [UniDB]

theorem valid_single {r : Str} (h : ValidName r) : Single r := by
  obtain ⟨hw, c, cs, rfl, _⟩ := h
  have hs : isWord '/' = false := rfl
  have hd : isWord '.' = false := rfl
  refine ⟨by simp, ?_, ?_⟩
  · intro e
    have := hw '.' (by rw [e]; simp)
    rw [hd] at this
    cases this
  · intro hm
    have := hw '/' hm
    rw [hs] at this
    cases this

theorem clean_single {k r : Str} (h : cleanName k = .ok r) : Single r :=
  valid_single (Props.C32_valid k r h)

theorem conf_writeDs {c : Scope} {g : HRef} (ho : Ok c g) (hne : g.id ≠ c.e) (label : Str)
    (d : PData) (a : Dict AVal) : Conf c (writeDs g label d a) (fun _ => True) := by
  unfold writeDs
  refine Conf.bind' (Conf.lift (Q := fun n => Single n) fun n hn => clean_single hn) fun n hn => ?_
  refine Conf.bind' (conf_writeDataset ho (Rel.of_ne hne (absolute_single hn)) _ _) fun _ _ => ?_
  exact Conf.pure' trivial

theorem conf_saveDict {c : Scope} {g : HRef} (ho : Ok c g) (hne : g.id ≠ c.e) (d : Dict PData) :
    Conf c (saveDict g d) (fun _ => True) :=
  Conf.each _ fun kv _ => conf_writeDs ho hne kv.1 kv.2 []

/-! ### data -/

theorem conf_need {c : Scope} {α : Type} (o : Option α) : Conf c (need o) (fun _ => True) := by
  cases o with
  | none => exact Conf.raise
  | some a => exact Conf.ret trivial

theorem conf_lift {c : Scope} {α : Type} (x : Except PyErr α) : Conf c (HM.lift x) (fun _ => True) :=
  Conf.lift fun _ _ => trivial

theorem conf_mcaItems {c : Scope} (x : Obj) : Conf c (mcaItems x) (fun _ => True) := by
  unfold mcaItems
  split
  · exact Conf.ret trivial
  · exact Conf.ret trivial
  · exact Conf.raise

theorem conf_mcaSpectra {c : Scope} {g : HRef} (ho : Ok c g) (hne : g.id ≠ c.e) (x : Obj)
    (axis : Str) : Conf c (mcaSpectra g x axis) (fun _ => True) := by
  unfold mcaSpectra
  refine Conf.bind' (conf_mcaItems x) fun items _ => Conf.each _ fun kv _ => ?_
  unfold spectrum
  refine Conf.bind' (conf_writeDs ho hne _ _ _) fun _ _ => ?_
  refine Conf.bind' (conf_lift _) fun n _ => ?_
  refine Conf.bind' (conf_writeDs ho hne _ _ _) fun _ _ => ?_
  exact conf_writeDs ho hne _ _ _

theorem conf_column {c : Scope} {g : HRef} (ho : Ok c g) (hne : g.id ≠ c.e) (x : Obj)
    (label : Str) : Conf c (column g x label) (fun _ => True) := by
  unfold column
  split
  · exact Conf.raise
  · exact Conf.bind' (conf_lift _) fun d _ => conf_writeDs ho hne _ _ _

theorem conf_oneD {c : Scope} {g : HRef} (ho : Ok c g) (hne : g.id ≠ c.e) (x : Obj) :
    Conf c (oneD g x) (fun _ => True) := by
  unfold oneD
  refine Conf.bind' (Conf.each _ fun l _ => conf_column ho hne x l) fun _ _ => ?_
  refine Conf.bind' (conf_need _) fun _ _ => ?_
  refine Conf.bind' (conf_lift _) fun _ _ => ?_
  refine Conf.bind' (conf_need _) fun _ _ => ?_
  refine Conf.bind' (conf_lift _) fun _ _ => ?_
  refine Conf.bind' (conf_mcaSpectra ho hne x _) fun _ _ => ?_
  exact Conf.pure' trivial

theorem conf_constantAxis {c : Scope} {g : HRef} (ho : Ok c g) (hne : g.id ≠ c.e) (x : Obj)
    (l1 l2 : Str) : Conf c (constantAxis g x l1 l2) (fun _ => True) := by
  unfold constantAxis
  split
  · split
    · exact Conf.raise
    · split
      · exact Conf.raise
      · exact Conf.raise
      · exact Conf.raise
      · exact conf_writeDs ho hne _ _ _
  · exact Conf.ret trivial

theorem conf_meshColumn {c : Scope} {g : HRef} (ho : Ok c g) (hne : g.id ≠ c.e) (x : Obj)
    (shape : List Nat) (label : Str) : Conf c (meshColumn g x shape label) (fun _ => True) := by
  unfold meshColumn
  refine Conf.bind' (conf_contains c g label) fun b _ => ?_
  cases b with
  | true => exact Conf.pure' trivial
  | false => exact Conf.bind' (conf_lift _) fun _ _ => conf_writeDs ho hne _ _ _

theorem conf_meshSpectra {c : Scope} {g : HRef} (ho : Ok c g) (hne : g.id ≠ c.e) (axes : Str)
    (items : List (Str × List (List Num))) :
    ∀ shape, Conf c (meshSpectra g axes shape items) (fun _ => True) := by
  induction items with
  | nil => intro shape; rw [meshSpectra]; exact Conf.ret trivial
  | cons kv rest ih =>
    intro shape
    rw [meshSpectra]
    refine Conf.bind' (conf_lift _) fun n _ => ?_
    cases shape with
    | none => exact Conf.raise
    | some shape =>
      show Conf c (if _ then _ else _) _
      split
      · refine Conf.bind' (conf_writeDs ho hne _ _ _) fun _ _ => ?_
        refine Conf.bind' (conf_writeDs ho hne _ _ _) fun _ _ => ?_
        exact ih _
      · exact Conf.raise

theorem conf_mesh {c : Scope} {g : HRef} (ho : Ok c g) (hne : g.id ≠ c.e) (x : Obj) :
    Conf c (mesh g x) (fun r => ∃ L, r.2.2 = { x with L := L }) := by
  unfold mesh
  refine Conf.bind' (conf_lift _) fun p _ => ?_
  obtain ⟨w1, n1, w2, n2⟩ := p
  refine Conf.bind' (conf_lift _) fun _ _ => ?_
  refine Conf.bind' (conf_lift _) fun _ _ => ?_
  refine Conf.bind' (conf_lift _) fun _ _ => ?_
  refine Conf.bind' (conf_lift _) fun _ _ => ?_
  refine Conf.bind' (conf_lift _) fun _ _ => ?_
  split
  · refine Conf.bind' (conf_oneD ho hne x) fun p _ => ?_
    refine Conf.bind' (conf_mcaItems x) fun _ _ => ?_
    refine Conf.bind' (conf_meshSpectra ho hne _ _ _) fun _ _ => ?_
    exact Conf.pure' ⟨x.L, rfl⟩
  · refine Conf.bind' (conf_lift _) fun _ _ => ?_
    refine Conf.bind' (conf_lift _) fun _ _ => ?_
    refine Conf.bind' (conf_lift _) fun _ _ => ?_
    refine Conf.bind' (conf_lift _) fun _ _ => ?_
    refine Conf.bind' (conf_constantAxis ho hne x _ _) fun _ _ => ?_
    refine Conf.bind' (conf_writeDs ho hne _ _ _) fun _ _ => ?_
    refine Conf.bind' (conf_writeDs ho hne _ _ _) fun _ _ => ?_
    refine Conf.bind' (Conf.each _ fun _ _ => conf_meshColumn ho hne x _ _) fun _ _ => ?_
    refine Conf.bind' (conf_need _) fun _ _ => ?_
    refine Conf.bind' (conf_lift _) fun _ _ => ?_
    refine Conf.bind' (conf_mcaItems x) fun _ _ => ?_
    refine Conf.bind' (conf_meshSpectra ho hne _ _ _) fun _ _ => ?_
    exact Conf.pure' ⟨_, rfl⟩

omit [UniDB] in
theorem conf_dataAttributes {c : Scope} {g : HRef} (ho : Ok c g) (hne : g.id ≠ c.e) (signal axes : Str) :
    Conf c (dataAttributes g signal axes) (fun _ => True) := by
  unfold dataAttributes
  split
  · refine Conf.bind' (conf_addAttributes ho.1 hne _) fun _ _ => ?_
    exact Conf.each _ fun _ _ => conf_addAttributes ho.1 hne _
  · refine Conf.bind' (conf_addAttributes ho.1 hne _) fun _ _ => ?_
    exact conf_addAttributes ho.1 hne _

theorem conf_saveData {c : Scope} {g : HRef} (ho : Ok c g) (hne : g.id ≠ c.e) (x : Obj) :
    Conf c (saveData g x) (fun y => ∃ L, y = { x with L := L }) := by
  unfold saveData
  split
  · exact Conf.raise
  · split
    · refine Conf.bind' (conf_mesh ho hne x) fun p hp => ?_
      refine Conf.bind' (conf_dataAttributes ho hne _ _) fun _ _ => ?_
      exact Conf.pure' hp
    · split
      · refine Conf.bind' (conf_oneD ho hne x) fun p _ => ?_
        refine Conf.bind' (conf_lift _) fun _ _ => ?_
        refine Conf.bind' (conf_dataAttributes ho hne _ _) fun _ _ => ?_
        exact Conf.pure' ⟨x.L, rfl⟩
      · refine Conf.bind' (conf_oneD ho hne x) fun p _ => ?_
        refine Conf.bind' (conf_dataAttributes ho hne _ _) fun _ _ => ?_
        exact Conf.pure' ⟨x.L, rfl⟩


/-! ### writers of the handlers -/

/-- a dataset written with a literal name -/
theorem conf_wd {c : Scope} {h : HRef} (ho : Ok c h) {name : Str} (hp : Plain name)
    (hx : ¬ c.X name) (d : PData) (a : Dict AVal) :
    Conf c (writeDataset h name d a) (fun r => Ok c r ∧ r.id ≠ c.e) :=
  conf_writeDataset ho (rel_lit h hp hx) d a

/-- a dataset written below the entry with a relative name -/
theorem conf_wdr {c : Scope} {h : HRef} (ho : Ok c h) (hne : h.id ≠ c.e) {name : Str}
    (hp : Relative name) (d : PData) (a : Dict AVal) :
    Conf c (writeDataset h name d a) (fun r => Ok c r ∧ r.id ≠ c.e) :=
  conf_writeDataset ho (Rel.of_ne hne hp) d a

/-- a dataset written below the entry with a literal name -/
theorem conf_wdl {c : Scope} {h : HRef} (ho : Ok c h) (hne : h.id ≠ c.e) {name : Str}
    (hp : Plain name) (d : PData) (a : Dict AVal) :
    Conf c (writeDataset h name d a) (fun r => Ok c r ∧ r.id ≠ c.e) :=
  conf_wdr ho hne (absolute_single hp.single) d a

theorem conf_og {c : Scope} {h : HRef} (ho : Ok c h) {name : Str} (hp : Plain name)
    (hx : ¬ c.X name) (cls : Str) (a : Dict AVal) :
    Conf c (openGroup h name cls a) (fun r => Ok c r ∧ r.id ≠ c.e) :=
  conf_openGroup ho (rel_lit h hp hx) (comps_ne hp) cls a

theorem conf_ogl {c : Scope} {h : HRef} (ho : Ok c h) (hne : h.id ≠ c.e) {name : Str}
    (hp : Single name) (cls : Str) (a : Dict AVal) :
    Conf c (openGroup h name cls a) (fun r => Ok c r ∧ r.id ≠ c.e) :=
  conf_openGroup ho (Rel.of_ne hne (absolute_single hp)) (by rw [comps_single hp]; simp) cls a

theorem conf_mg {c : Scope} {h : HRef} (ho : Ok c h) {name : Str} (hp : Plain name)
    (hx : ¬ c.X name) (cls : Str) (a : Dict AVal) :
    Conf c (makeGroup h name cls a) (fun r => Ok c r ∧ r.id ≠ c.e) :=
  conf_makeGroup ho (rel_lit h hp hx) cls a

theorem conf_wDate {c : Scope} {e : HRef} (ho : Ok c e) (x : Obj) (hx : ¬ c.X p!"date") :
    Conf c (wDate e x) (fun _ => True) := by
  unfold wDate
  refine Conf.bind' (conf_lift _) fun _ _ => ?_
  exact Conf.bind' (conf_wd ho (by decide) hx _ _) fun _ _ => Conf.pure' trivial

theorem conf_wComments {c : Scope} {e : HRef} (ho : Ok c e) (x : Obj) (hx : ¬ c.X p!"comments") :
    Conf c (wComments e x) (fun _ => True) := by
  unfold wComments
  exact Conf.bind' (conf_wd ho (by decide) hx _ _) fun _ _ => Conf.pure' trivial

theorem conf_wLattice {c : Scope} {e : HRef} (ho : Ok c e) (l : Lattice) (hx : ¬ c.X p!"sample") :
    Conf c (wLattice e l) (fun _ => True) := by
  unfold wLattice
  refine Conf.bind' (conf_og ho (by decide) hx _ _) fun g hg => ?_
  cases l with
  | three a b c al be ga =>
    refine Conf.bind' (conf_wdl hg.1 hg.2 (by decide) _ _) fun _ _ => ?_
    refine Conf.bind' (conf_wdl hg.1 hg.2 (by decide) _ _) fun _ _ => ?_
    refine Conf.bind' (conf_wdl hg.1 hg.2 (by decide) _ _) fun _ _ => ?_
    exact Conf.pure' trivial
  | two a b ga =>
    refine Conf.bind' (conf_wdl hg.1 hg.2 (by decide) _ _) fun _ _ => ?_
    refine Conf.bind' (conf_wdl hg.1 hg.2 (by decide) _ _) fun _ _ => ?_
    refine Conf.bind' (conf_wdl hg.1 hg.2 (by decide) _ _) fun _ _ => ?_
    exact Conf.pure' trivial

theorem natStr_chars (n : Nat) : ∀ x ∈ natStr n, isDig x = true := by
  exact natStr_isDig n

theorem plain_num {t : Str} (ht : Plain t) (h2 : 2 ≤ t.length) (n : Nat) : Plain (t ++ natStr n) := by
  refine ⟨by simp [ht.ne], ?_, ?_⟩
  · intro e
    have := congrArg List.length e
    simp at this
    omega
  · intro x hx
    rcases List.mem_append.1 hx with hx | hx
    · exact ht.chars x hx
    · have := natStr_chars n x hx
      simp only [isDig, Bool.and_eq_true, decide_eq_true_eq] at this
      refine ⟨?_, by omega⟩
      rintro rfl
      have h1 : (48 : Nat) ≤ 47 := this.1
      omega

theorem conf_wReflectionFields {c : Scope} {g : HRef} (ho : Ok c g) (hne : g.id ≠ c.e)
    (h k : PyFloat) (l : Option PyFloat) (wl : PyFloat) (an : Dict PyFloat)
    (hr : ∀ k ∈ an.keys, Relative k) :
    Conf c (wReflectionFields g h k l wl an) (fun _ => True) := by
  unfold wReflectionFields
  refine Conf.bind' (conf_wdl ho hne (by decide) _ _) fun _ _ => ?_
  refine Conf.bind' (conf_wdl ho hne (by decide) _ _) fun _ _ => ?_
  refine Conf.bind' (Conf.ifSome fun l _ => Conf.bind' (conf_wdl ho hne (by decide) _ _)
    fun _ _ => Conf.pure' trivial) fun _ _ => ?_
  refine Conf.bind' (conf_wdl ho hne (by decide) _ _) fun _ _ => ?_
  refine Conf.each _ fun ka hka => ?_
  refine Conf.bind' (conf_wdr ho hne (hr ka.1 (List.mem_map_of_mem hka)) _ _) fun _ _ => ?_
  exact Conf.pure' trivial

theorem conf_wReflection {c : Scope} {g : HRef} (ho : Ok c g) (hne : g.id ≠ c.e)
    (ir : Nat × Reflection) (hr : ∀ k ∈ (angles ir.2).keys, Relative k) :
    Conf c (wReflection g ir) (fun _ => True) := by
  unfold wReflection
  refine Conf.bind' (conf_ogl ho hne (plain_num (by decide) (by decide) _).single _ _) fun r hrr => ?_
  obtain ⟨i, ref⟩ := ir
  cases ref with
  | three h k l wl an => exact conf_wReflectionFields hrr.1 hrr.2 _ _ _ _ _ hr
  | two h k wl an => exact conf_wReflectionFields hrr.1 hrr.2 _ _ _ _ _ hr

theorem conf_wSample {c : Scope} {e : HRef} (ho : Ok c e) {name : Str} (hp : Plain name)
    (d : Option PData) (hx : ¬ c.X p!"sample") : Conf c (wSample e name d) (fun _ => True) := by
  unfold wSample
  cases d with
  | none => exact Conf.ret trivial
  | some d =>
    refine Conf.bind' (conf_og ho (by decide) hx _ _) fun g hg => ?_
    exact Conf.bind' (conf_wdl hg.1 hg.2 hp _ _) fun _ _ => Conf.pure' trivial

theorem conf_wWavelength {c : Scope} (hE : Plain c.E) {e i : HRef} (ho : Ok c e) (hi : Ok c i)
    (hie : i.id ≠ c.e) (wl : PyFloat) (hx : ¬ c.X p!"sample") :
    Conf c (wWavelength e i wl) (fun _ => True) := by
  unfold wWavelength
  refine Conf.bind' (conf_ogl hi hie (Plain.single (by decide)) _ _) fun m hm => ?_
  refine Conf.bind' (conf_wdl hm.1 hm.2 (by decide) _ _) fun ds hds => ?_
  refine Conf.bind' (conf_og ho (by decide) hx _ _) fun sa hsa => ?_
  refine Conf.bind' (conf_ogl hsa.1 hsa.2 (Plain.single (by decide)) _ _) fun b hb => ?_
  exact conf_makeLink_abs hE sa hds.1 hds.2 hb.1 hb.2 _

/-- the part of the geometry writer for the diffractometer -/
def geoRest (e : HRef) (diff : Diff) : HM Unit :=
  if diff.gpar = [] then pure ()
  else do
    let instrument ← openGroup e p!"instrument" p!"NXinstrument" []
    let _ ← writeDataset instrument p!"name" (.str diff.full) []
    HM.ifSome diff.lattice (wLattice e)
    wSample e p!"ub_matrix" ((diff.gpar.get? p!"ub_matrix").map gData)
    wSample e p!"diffractometer_mode" (diff.mode.map .str)
    wSample e p!"diffractometer_sector" (diff.sector.map (fun i => .num (.int i)))
    HM.onlyIf (!diff.reflections.isEmpty) do
      let sample ← openGroup e p!"sample" p!"NXsample" []
      HM.each (wReflection sample) ((List.range diff.reflections.length).zip diff.reflections)
    HM.ifSome diff.wavelength (wWavelength e instrument)
    let note ← openGroup instrument p!"geometry_parameters" containerClass
      (attr1 p!"description" p!"SPEC geometry arrays, interpreted")
    HM.each (fun kv => do
      let _ ← writeDataset note kv.1 (gData kv.2) (descAttr diff kv.1)
      pure ()) diff.gpar

theorem conf_geoRest {c : Scope} (hE : Plain c.E) {e : HRef} (ho : Ok c e) (x : Obj)
    (hr : RelNames x) (hi : ¬ c.X p!"instrument") (hs : ¬ c.X p!"sample") {diff : Diff} (hdiff : x.diff = some diff) :
    Conf c (geoRest e diff) (fun _ => True) := by
  unfold geoRest
  obtain ⟨hg1, hg2⟩ := hr.geometry diff hdiff
  split
  · exact Conf.pure' trivial
  · refine Conf.bind' (conf_og ho (by decide) hi _ _) fun ins hins => ?_
    refine Conf.bind' (conf_wdl hins.1 hins.2 (by decide) _ _) fun _ _ => ?_
    refine Conf.bind' (Conf.ifSome fun l _ => conf_wLattice ho l hs) fun _ _ => ?_
    refine Conf.bind' (conf_wSample ho (by decide) _ hs) fun _ _ => ?_
    refine Conf.bind' (conf_wSample ho (by decide) _ hs) fun _ _ => ?_
    refine Conf.bind' (conf_wSample ho (by decide) _ hs) fun _ _ => ?_
    refine Conf.bind' (Q := fun _ => True) ?_ fun _ _ => ?_
    · refine Conf.onlyIf fun _ => ?_
      · refine Conf.bind' (conf_og ho (by decide) hs _ _) fun sa hsa => ?_
        refine Conf.each _ fun ir hir => conf_wReflection hsa.1 hsa.2 ir ?_
        exact hg2 _ (List.of_mem_zip hir).2
    refine Conf.bind' (Conf.ifSome fun wl _ => conf_wWavelength hE ho hins.1 hins.2 wl hs) fun _ _ => ?_
    refine Conf.bind' (conf_ogl hins.1 hins.2 (Plain.single (by decide)) _ _) fun no hno => ?_
    refine Conf.each _ fun kv hkv => ?_
    refine Conf.bind' (conf_wdr hno.1 hno.2 (hg1 kv.1 (List.mem_map_of_mem hkv)) _ _) fun _ _ => ?_
    exact Conf.pure' trivial

theorem conf_wGeometry {c : Scope} (hE : Plain c.E) {e : HRef} (ho : Ok c e) (x : Obj)
    (hr : RelNames x) (hG : ¬ c.X p!"G") (hi : ¬ c.X p!"instrument") (hs : ¬ c.X p!"sample") :
    Conf c (wGeometry e x) (fun _ => True) := by
  unfold wGeometry
  refine Conf.bind' (conf_mg ho (by decide) hG _ _) fun g hg => ?_
  refine Conf.bind' (conf_need _) fun G _ => ?_
  refine Conf.bind' (conf_lift _) fun dd _ => ?_
  refine Conf.bind' (conf_saveDict hg.1 hg.2 _) fun _ _ => ?_
  have hneed : Conf c (need x.diff) (fun d => x.diff = some d) := by
    cases hd : x.diff with
    | none => exact Conf.raise
    | some d => exact Conf.ret rfl
  refine Conf.bind' hneed fun diff hdiff => ?_
  exact conf_geoRest hE ho x hr hi hs hdiff

theorem conf_wXref {c : Scope} {e : HRef} (ho : Ok c e) {name : Str} (hp : Plain name)
    (hx : ¬ c.X name) (desc comment : Str) (d : Dict Str) (hd : ∀ k ∈ d.keys, Relative k) :
    Conf c (wXref e name desc comment d) (fun _ => True) := by
  unfold wXref
  refine Conf.bind' (conf_mg ho hp hx _ _) fun g hg => ?_
  refine Conf.each _ fun kv hkv => ?_
  have hm : kv ∈ d := (sortBy_perm _ d).mem_iff.1 hkv
  refine Conf.bind' (conf_wdr hg.1 hg.2 (hd kv.1 (List.mem_map_of_mem hm)) _ _) fun _ _ => ?_
  exact Conf.pure' trivial

theorem conf_wCounterXref {c : Scope} {e : HRef} (ho : Ok c e) (b : Bool) (x : Obj)
    (hr : RelNames x) (hx : ¬ c.X p!"counter_cross_reference") :
    Conf c (wCounterXref b e x) (fun _ => True) := by
  unfold wCounterXref
  simp only
  split
  · exact Conf.ret trivial
  · exact conf_wXref ho (by decide) hx _ _ _ hr.counters

theorem conf_wPositionerXref {c : Scope} {e : HRef} (ho : Ok c e) (x : Obj)
    (hr : RelNames x) (hx : ¬ c.X p!"positioner_cross_reference") :
    Conf c (wPositionerXref e x) (fun _ => True) := by
  unfold wPositionerXref
  simp only
  split
  · exact Conf.ret trivial
  · exact conf_wXref ho (by decide) hx _ _ _ hr.positioners

theorem conf_wPreset {c : Scope} {e : HRef} (ho : Ok c e) {name : Str} (hp : Plain name)
    (hx : ¬ c.X name) (hb : ¬ c.X p!"counting_basis") (u d : Str) (t : Option Str) :
    Conf c (wPreset e name u d t) (fun _ => True) := by
  unfold wPreset
  refine Conf.bind' (conf_wd ho (by decide) hb _ _) fun _ _ => ?_
  refine Conf.bind' (conf_need _) fun _ _ => ?_
  refine Conf.bind' (conf_lift _) fun _ _ => ?_
  exact Conf.bind' (conf_wd ho hp hx _ _) fun _ _ => Conf.pure' trivial

theorem conf_wPositioner {c : Scope} {g : HRef} (ho : Ok c g) (hne : g.id ≠ c.e)
    (xr : Option (Dict Str)) (p : Nat × Str × PyFloat) :
    Conf c (wPositioner g xr p) (fun _ => True) := by
  unfold wPositioner
  refine Conf.bind' (Conf.lift (Q := fun n => Single n) fun n hn => clean_single hn) fun n hn => ?_
  refine Conf.bind' (conf_ogl ho hne hn _ _) fun pg hpg => ?_
  refine Conf.bind' (conf_lift _) fun _ _ => ?_
  refine Conf.bind' (conf_wdl hpg.1 hpg.2 (by decide) _ _) fun _ _ => ?_
  refine Conf.bind' (conf_wdl hpg.1 hpg.2 (by decide) _ _) fun _ _ => ?_
  exact Conf.pure' trivial

theorem conf_wPositioners {c : Scope} (hE : Plain c.E) {e : HRef} (ho : Ok c e) (hdr x : Obj)
    (hp : ¬ c.X p!"positioners") (hi : ¬ c.X p!"instrument") :
    Conf c (wPositioners e hdr x) (fun _ => True) := by
  unfold wPositioners
  refine Conf.bind' (conf_mg ho (by decide) hp _ _) fun g hg => ?_
  refine Conf.bind' (Conf.each _ fun p _ => conf_wPositioner hg.1 hg.2 _ p) fun _ _ => ?_
  refine Conf.bind' (conf_og ho (by decide) hi _ _) fun i hi => ?_
  exact conf_makeLink_abs hE e hg.1 hg.2 hi.1 hi.2 _

theorem conf_wHkl {c : Scope} {e : HRef} (ho : Ok c e) (x : Obj) (hx : ¬ c.X p!"Q") :
    Conf c (wHkl e x) (fun _ => True) := by
  unfold wHkl
  refine Conf.bind' (conf_need _) fun _ _ => ?_
  exact Conf.bind' (conf_wd ho (by decide) hx _ _) fun _ _ => Conf.pure' trivial

theorem conf_wLines {c : Scope} {e : HRef} (ho : Ok c e) {name : Str} (hp : Plain name)
    (hx : ¬ c.X name) (desc key : Str) (k : Kind) (l : Option (List Str)) :
    Conf c (wLines e name desc p!"item" key k l) (fun _ => True) := by
  unfold wLines
  refine Conf.bind' (conf_og ho hp hx _ _) fun g hg => ?_
  refine Conf.bind' (conf_need _) fun _ _ => ?_
  refine Conf.each _ fun p _ => ?_
  refine Conf.bind' (conf_wdl hg.1 hg.2 ?_ _ _) fun _ _ => Conf.pure' trivial
  cases k
  · exact plain_num (t := p!"header_") (by decide) (by decide) _
  · exact plain_num (t := p!"item_") (by decide) (by decide) _

theorem conf_wTemperature {c : Scope} {e : HRef} (ho : Ok c e) (x : Obj) (h1 : ¬ c.X p!"TEMP_SP")
    (h2 : ¬ c.X p!"DEGC_SP") : Conf c (wTemperature e x) (fun _ => True) := by
  unfold wTemperature
  refine Conf.bind' (Conf.ifSome fun _ _ => Conf.bind' (conf_wd ho (by decide) h1 _ _)
    fun _ _ => Conf.pure' trivial) fun _ _ => ?_
  exact Conf.ifSome fun _ _ => Conf.bind' (conf_wd ho (by decide) h2 _ _)
    fun _ _ => Conf.pure' trivial

theorem conf_mcaGroup {c : Scope} {e : HRef} (ho : Ok c e) (h1 : ¬ c.X p!"MCA") :
    Conf c (mcaGroup e) (fun r => Ok c r ∧ r.id ≠ c.e) := conf_og ho (by decide) h1 _ _

theorem conf_linkMca {c : Scope} (hE : Plain c.E) {e g : HRef} (ho : Ok c e) (hg : Ok c g)
    (hge : g.id ≠ c.e) (h2 : ¬ c.X p!"instrument") :
    Conf c (linkMca e g) (fun r => Ok c r ∧ r.id ≠ c.e) := by
  unfold linkMca
  refine Conf.bind' (conf_og ho (by decide) h2 _ _) fun i hi => ?_
  refine Conf.bind' (Q := fun _ => True) ?_ fun _ _ => Conf.pure' hi
  refine Conf.andThen (conf_contains c _ _) fun _ _ => Conf.onlyIf fun _ => ?_
  exact conf_makeLink_abs hE e hg hge hi.1 hi.2 _

theorem conf_wCalib {c : Scope} {e : HRef} (ho : Ok c e) (x : Obj) (h1 : ¬ c.X p!"MCA") :
    Conf c (wCalib e x) (fun _ => True) := by
  unfold wCalib
  split
  · refine Conf.bind' (conf_mcaGroup ho h1) fun g hg => ?_
    refine Conf.bind' (conf_wdl hg.1 hg.2 (by decide) _ _) fun _ _ => ?_
    refine Conf.bind' (conf_wdl hg.1 hg.2 (by decide) _ _) fun _ _ => ?_
    refine Conf.bind' (conf_wdl hg.1 hg.2 (by decide) _ _) fun _ _ => ?_
    exact Conf.pure' trivial
  · exact Conf.ret trivial

theorem conf_wChann {c : Scope} (hE : Plain c.E) {e : HRef} (ho : Ok c e) (x : Obj)
    (h1 : ¬ c.X p!"MCA") (h2 : ¬ c.X p!"instrument") : Conf c (wChann e x) (fun _ => True) := by
  unfold wChann
  split
  · exact Conf.ret trivial
  · refine Conf.bind' (conf_mcaGroup ho h1) fun g hg => ?_
    refine Conf.bind' (Q := fun _ => True) ?_ fun _ _ => ?_
    · refine Conf.ifSome fun _ _ => ?_
      refine Conf.bind' (conf_wdl hg.1 hg.2 (by decide) _ _) fun _ _ => ?_
      refine Conf.bind' (conf_wdl hg.1 hg.2 (by decide) _ _) fun _ _ => ?_
      refine Conf.bind' (conf_wdl hg.1 hg.2 (by decide) _ _) fun _ _ => ?_
      refine Conf.bind' (conf_wdl hg.1 hg.2 (by decide) _ _) fun _ _ => ?_
      exact Conf.pure' trivial
    refine Conf.bind' (conf_linkMca hE ho hg.1 hg.2 h2) fun i hi => ?_
    refine Conf.bind' (conf_get_ne hi.1 (Rel.of_ne hi.2 (by decide)) (by decide)) fun t ht => ?_
    exact conf_setAttr ht.1.1 ht.2 _ _

theorem conf_wCtime {c : Scope} (hE : Plain c.E) {e : HRef} (ho : Ok c e) (x : Obj)
    (h1 : ¬ c.X p!"MCA") (h2 : ¬ c.X p!"instrument") : Conf c (wCtime e x) (fun _ => True) := by
  unfold wCtime
  split
  · exact Conf.ret trivial
  · refine Conf.bind' (conf_mcaGroup ho h1) fun g hg => ?_
    refine Conf.bind' (Q := fun _ => True) ?_ fun _ _ => ?_
    · refine Conf.ifSome fun _ _ => ?_
      refine Conf.bind' (conf_wdl hg.1 hg.2 (by decide) _ _) fun _ _ => ?_
      refine Conf.bind' (conf_wdl hg.1 hg.2 (by decide) _ _) fun _ _ => ?_
      refine Conf.bind' (conf_wdl hg.1 hg.2 (by decide) _ _) fun _ _ => ?_
      exact Conf.pure' trivial
    exact Conf.bind' (conf_linkMca hE ho hg.1 hg.2 h2) fun _ _ => Conf.pure' trivial

theorem conf_wScanData {c : Scope} {e : HRef} (ho : Ok c e) (x : Obj) (h1 : ¬ c.X p!"data") :
    Conf c (wScanData e x) (fun y => ∃ L, y = { x with L := L }) := by
  unfold wScanData
  refine Conf.bind' (conf_mg ho (by decide) h1 _ _) fun g hg => ?_
  exact conf_saveData hg.1 hg.2 x

theorem conf_wMetadata {c : Scope} (hE : Plain c.E) {e : HRef} (ho : Ok c e) (x : Obj)
    (h1 : ¬ c.X p!"metadata") (h2 : ¬ c.X p!"instrument") :
    Conf c (wMetadata e x) (fun _ => True) := by
  unfold wMetadata
  split
  · exact Conf.ret trivial
  · exact Conf.ret trivial
  · refine Conf.bind' (conf_mg ho (by decide) h1 _ _) fun g hg => ?_
    refine Conf.bind' (conf_saveDict hg.1 hg.2 _) fun _ _ => ?_
    refine Conf.bind' (conf_og ho (by decide) h2 _ _) fun i hi => ?_
    exact conf_makeLink_abs hE e hg.1 hg.2 hi.1 hi.2 _

theorem conf_wV {c : Scope} {e : HRef} (ho : Ok c e) {name : Str} (hp : Plain name)
    (hx : ¬ c.X name) (d : Option (Dict Str)) : Conf c (wV e name d) (fun _ => True) := by
  unfold wV
  refine Conf.bind' (conf_mg ho hp hx _ _) fun g hg => ?_
  refine Conf.bind' (conf_need _) fun _ _ => ?_
  exact conf_saveDict hg.1 hg.2 _

theorem conf_wMD {c : Scope} {e : HRef} (ho : Ok c e) (x : Obj)
    (h1 : ¬ c.X p!"bluesky_metadata") : Conf c (wMD e x) (fun _ => True) := by
  unfold wMD
  split
  · exact Conf.ret trivial
  · exact Conf.ret trivial
  · refine Conf.bind' (conf_mg ho (by decide) h1 _ _) fun g hg => ?_
    exact conf_saveDict hg.1 hg.2 _

theorem freeUnrec_form (taken : Str → Bool) (n : Nat) :
    ∀ i, ∃ j, i ≤ j ∧ freeUnrec taken n i = p!"unrecognized_" ++ natStr j := by
  induction n with
  | zero => intro i; exact ⟨i, Nat.le_refl _, rfl⟩
  | succ n ih =>
    intro i
    rw [freeUnrec]
    split
    · obtain ⟨j, hj, e⟩ := ih (i + 1)
      exact ⟨j, by omega, e⟩
    · exact ⟨i, Nat.le_refl _, rfl⟩

theorem conf_wUnrec {c : Scope} {e : HRef} (ho : Ok c e) (x : Obj)
    (hx : ∀ i, ¬ c.X (p!"unrecognized_" ++ natStr i)) : Conf c (wUnrec e x) (fun _ => True) := by
  unfold wUnrec
  refine Conf.bind' (Q := fun nm => ∃ i, nm = p!"unrecognized_" ++ natStr i) ?_ fun nm hnm => ?_
  · intro s hs
    refine ⟨hs, Same.refl c s, fun a ha => ?_⟩
    injection ha with ha
    obtain ⟨j, _, hj⟩ := freeUnrec_form (fun n => (walk s e.id (comps n)).isSome) (childCount s e.id) 1
    exact ⟨j, by rw [← ha]; exact hj⟩
  · obtain ⟨i, rfl⟩ := hnm
    refine Conf.bind' (conf_mg ho (plain_num (by decide) (by decide) _) (hx i) _ _) fun g hg => ?_
    refine Conf.bind' (conf_need _) fun _ _ => ?_
    exact conf_saveDict hg.1 hg.2 _

/-! ### UXML -/

/-- the objects remembered while UXML is written are in the scope -/
structure UOk (c : Scope) (u : UState) : Prop where
  unique : ∀ p ∈ u.unique, Ok c p.2 ∧ p.2.id ≠ c.e
  target : ∀ p ∈ u.target, Ok c p.2.1 ∧ p.2.1.id ≠ c.e ∧ '/' ∉ p.2.2

theorem relative_of {n : Str} (h : '/' ∉ n) : absolute n = false := by
  cases n with
  | nil => rfl
  | cons x xs =>
    have : x ≠ '/' := by
      intro e; exact h (by rw [e]; exact List.mem_cons_self ..)
    show ('/' == x && _) = false
    rw [beq_eq_false_iff_ne.mpr (Ne.symm this)]
    rfl

theorem UOk.remember {c : Scope} {u : UState} (hu : UOk c u) {h : HRef} (ho : Ok c h)
    (hne : h.id ≠ c.e) (uid : Option Str) : UOk c (remember uid h u) := by
  cases uid with
  | none => exact hu
  | some k =>
    refine ⟨fun p hp => ?_, hu.target⟩
    rcases Dict.mem_set hp with rfl | hp
    · exact ⟨ho, hne⟩
    · exact hu.unique p hp

theorem conf_needAttr {c : Scope} (k : Str) (a : Dict Str) :
    Conf c (needAttr k a) (fun n => a.get? k = some n) := by
  unfold needAttr
  cases h : a.get? k with
  | none => exact Conf.raise
  | some n => exact Conf.ret rfl

mutual
theorem conf_uxmlNode {c : Scope} : ∀ (n : XmlNode) {h : HRef} (u : UState), Ok c h → h.id ≠ c.e →
    XmlOk n → UOk c u → Conf c (uxmlNode h n u) (UOk c)
  | .mk tag attrib text children, h, u, ho, hne, hx, hu => by
    rw [uxmlNode]
    rw [XmlOk] at hx
    split
    · refine Conf.bind' (conf_needAttr _ _) fun nm hnm => ?_
      refine Conf.bind' (conf_lift _) fun v _ => ?_
      refine Conf.bind' (conf_makeDataset ho (Rel.of_ne hne (relative_of (hx.1 nm hnm))) _ _) fun ds hds => ?_
      exact Conf.pure' (hu.remember hds.1 hds.2 _)
    · split
      · refine Conf.bind' (conf_needAttr _ _) fun nm hnm => ?_
        refine Conf.bind' (conf_create ho (Rel.of_ne hne (relative_of (hx.1 nm hnm))) _ (by
          intro ch a e; injection e with e _; exact e.symm)) fun g hg => ?_
        refine Conf.bind' (conf_needAttr _ _) fun cls _ => ?_
        refine Conf.bind' (conf_setAttr hg.1.1 hg.2 _ _) fun _ _ => ?_
        refine Conf.bind' (conf_addAttributes hg.1.1 hg.2 _) fun _ _ => ?_
        exact conf_uxmlNodes children _ hg.1 hg.2 hx.2 (hu.remember hg.1 hg.2 _)
      · split
        · split
          · exact Conf.ret hu
          · rename_i t ht
            refine Conf.andThen (conf_needAttr _ _) fun nm hnm => Conf.ret ?_
            refine ⟨hu.unique, fun p hp => ?_⟩
            rcases Dict.mem_set hp with rfl | hp
            · exact ⟨ho, hne, hx.1 nm hnm⟩
            · exact hu.target p hp
        · exact Conf.raise
theorem conf_uxmlNodes {c : Scope} : ∀ (ns : List XmlNode) {h : HRef} (u : UState), Ok c h →
    h.id ≠ c.e → XmlsOk ns → UOk c u → Conf c (uxmlNodes h ns u) (UOk c)
  | [], h, u, _, _, _, hu => by rw [uxmlNodes]; exact Conf.ret hu
  | n :: ns, h, u, ho, hne, hx, hu => by
    rw [uxmlNodes]
    rw [XmlsOk] at hx
    exact Conf.andThen (conf_uxmlNode n u ho hne hx.1 hu) fun u hu =>
      conf_uxmlNodes ns u ho hne hx.2 hu
end

theorem conf_uxmlLinks {c : Scope} (hE : Plain c.E) (u : UState) (hu : UOk c u) :
    Conf c (uxmlLinks u) (fun _ => True) := by
  refine Conf.each _ fun t ht => ?_
  obtain ⟨h1, h2, h3⟩ := hu.target t ht
  cases hs : u.unique.get? t.1 with
  | none => exact Conf.ret trivial
  | some src =>
    obtain ⟨k1, k2⟩ := hu.unique _ (Dict.mem_of_get? hs)
    refine conf_makeLink_rel hE h1 k1 k2 (Rel.of_ne h2 (relative_of ?_))
    exact fun hm => h3 (List.mem_filter.1 hm).1

theorem conf_wUxml {c : Scope} (hE : Plain c.E) {e : HRef} (ho : Ok c e) (x : Obj)
    (hr : RelNames x) (h1 : ¬ c.X p!"UXML") : Conf c (wUxml e x) (fun _ => True) := by
  unfold wUxml
  refine Conf.bind' (conf_mg ho (by decide) h1 _ _) fun g hg => ?_
  cases hx : x.uxmlRoot with
  | none => exact Conf.raise
  | some n =>
    obtain ⟨t, a, v, ch⟩ := n
    refine Conf.bind' (conf_uxmlNodes ch {} hg.1 hg.2 (hr.xml t a v ch hx)
      ⟨by intro p hp; simp at hp, by intro p hp; simp at hp⟩) fun u hu => ?_
    exact conf_uxmlLinks hE u hu

/-! ### all writers -/

/-- the names that a writer uses in the entry -/
def usedBy : H5Fn → List Str
  | .date => [p!"date"]
  | .comments => [p!"comments"]
  | .geometry => [p!"G", p!"instrument", p!"sample"]
  | .counterJ => [p!"counter_cross_reference"]
  | .counterj => [p!"counter_cross_reference"]
  | .positionerXref => [p!"positioner_cross_reference"]
  | .monitor => [p!"counting_basis", p!"M"]
  | .positioners => [p!"positioners", p!"instrument"]
  | .hkl => [p!"Q"]
  | .userResults => [p!"UserResults"]
  | .countTime => [p!"counting_basis", p!"T"]
  | .userReserved => [p!"UserReserved"]
  | .temperature => [p!"TEMP_SP", p!"DEGC_SP"]
  | .calib => [p!"MCA"]
  | .chann => [p!"MCA", p!"instrument"]
  | .ctime => [p!"MCA", p!"instrument"]
  | .scanData => [p!"data"]
  | .metadata => [p!"metadata", p!"instrument"]
  | .VA => [p!"VA"]
  | .VD => [p!"VD"]
  | .VE => [p!"VE"]
  | .XPCS => []
  | .CCD => []
  | .MD => [p!"bluesky_metadata"]
  | .unrec => []
  | .uxml => [p!"UXML"]

/-- the writer uses no name of `X` in the entry -/
def Avoids (c : Scope) (f : H5Fn) : Prop :=
  (∀ n ∈ usedBy f, ¬ c.X n) ∧ (f = .unrec → ∀ i, ¬ c.X (p!"unrecognized_" ++ natStr i))

theorem _root_.S2N.Spec.RelNames.withL {x : Obj} (h : RelNames x) (L : Option (List Str)) :
    RelNames { x with L := L } := ⟨h.counters, h.positioners, h.geometry, h.fields, h.xml⟩

theorem conf_runWriter {c : Scope} (hE : Plain c.E) {e : HRef} (ho : Ok c e) (hdr x : Obj)
    (hr : RelNames x) (f : H5Fn) (ha : Avoids c f) :
    Conf c (runWriter f e hdr x) (fun y => ∃ L, y = { x with L := L }) := by
  have k : ∀ {m : HM Unit}, Conf c m (fun _ => True) →
      Conf c (HM.andThen m fun _ => HM.ret x) (fun y => ∃ L, y = { x with L := L }) :=
    fun h => Conf.andThen h fun _ _ => Conf.ret ⟨x.L, rfl⟩
  have hn : ∀ n ∈ usedBy f, ¬ c.X n := ha.1
  cases f with
  | date => exact k (conf_wDate ho x (hn _ (by decide)))
  | comments => exact k (conf_wComments ho x (hn _ (by decide)))
  | geometry => exact k (conf_wGeometry hE ho x hr (hn _ (by decide)) (hn _ (by decide)) (hn _ (by decide)))
  | counterJ => exact k (conf_wCounterXref ho _ x hr (hn _ (by decide)))
  | counterj => exact k (conf_wCounterXref ho _ x hr (hn _ (by decide)))
  | positionerXref => exact k (conf_wPositionerXref ho x hr (hn _ (by decide)))
  | monitor => exact k (conf_wPreset ho (by decide) (hn _ (by decide)) (hn _ (by decide)) _ _ _)
  | positioners => exact k (conf_wPositioners hE ho hdr x (hn _ (by decide)) (hn _ (by decide)))
  | hkl => exact k (conf_wHkl ho x (hn _ (by decide)))
  | userResults => exact k (conf_wLines ho (by decide) (hn _ (by decide)) _ _ _ _)
  | countTime => exact k (conf_wPreset ho (by decide) (hn _ (by decide)) (hn _ (by decide)) _ _ _)
  | userReserved => exact k (conf_wLines ho (by decide) (hn _ (by decide)) _ _ _ _)
  | temperature => exact k (conf_wTemperature ho x (hn _ (by decide)) (hn _ (by decide)))
  | calib => exact k (conf_wCalib ho x (hn _ (by decide)))
  | chann => exact k (conf_wChann hE ho x (hn _ (by decide)) (hn _ (by decide)))
  | ctime => exact k (conf_wCtime hE ho x (hn _ (by decide)) (hn _ (by decide)))
  | scanData => exact conf_wScanData ho x (hn _ (by decide))
  | metadata => exact k (conf_wMetadata hE ho x (hn _ (by decide)) (hn _ (by decide)))
  | VA => exact k (conf_wV ho (by decide) (hn _ (by decide)) _)
  | VD => exact k (conf_wV ho (by decide) (hn _ (by decide)) _)
  | VE => exact k (conf_wV ho (by decide) (hn _ (by decide)) _)
  | XPCS => exact Conf.ret ⟨x.L, rfl⟩
  | CCD => exact Conf.ret ⟨x.L, rfl⟩
  | MD => exact k (conf_wMD ho x (hn _ (by decide)))
  | unrec => exact k (conf_wUnrec ho x (ha.2 rfl))
  | uxml => exact k (conf_wUxml hE ho x hr (hn _ (by decide)))

theorem conf_runWriters {c : Scope} (hE : Plain c.E) {e : HRef} (ho : Ok c e) (hdr : Obj)
    (fs : List H5Fn) : ∀ x, RelNames x → (∀ f ∈ fs, Avoids c f) →
    Conf c (runWriters e hdr fs x) (fun y => ∃ L, y = { x with L := L }) := by
  induction fs with
  | nil => intro x _ _; exact Conf.ret ⟨x.L, rfl⟩
  | cons f fs ih =>
    intro x hr ha
    rw [runWriters]
    refine Conf.andThen (conf_runWriter hE ho hdr x hr f (ha f (List.mem_cons_self ..))) ?_
    rintro y ⟨L, rfl⟩
    refine (ih _ (hr.withL L) fun f hf => ha f (List.mem_cons_of_mem _ hf)).mono ?_
    rintro z ⟨L', rfl⟩
    exact ⟨L', rfl⟩

/-- the names that `additions` uses in the entry -/
def usedByAdditions : List Str :=
  [p!"instrument", p!"positioners", p!"M", p!"T", p!"monitor", p!"TEMP_SP", p!"DEGC_SP", p!"sample"]

/-- getting something by a literal name -/
theorem conf_gt {c : Scope} {h : HRef} (ho : Ok c h) {name : Str} (hp : Plain name)
    (hx : ¬ c.X name) : Conf c (get h name) (fun r => Ok c r ∧ r.id ≠ c.e) := by
  have hr := rel_lit (c := c) h hp hx
  apply Conf.lookE
  intro s hs x hx
  rw [hr.base] at hx
  cases hw : walk s h.id (comps name) with
  | none => simp [hw] at hx
  | some j =>
    simp only [hw] at hx
    injection hx with hx
    subst hx
    obtain ⟨w1, w2, w3⟩ := walk_scope hs _ ho.1 hr.head hw
    exact ⟨ho.path hr w1 w2 (fun hne => (w3 hne).1), (w3 (comps_ne hp)).1⟩

/-- getting something below the entry by a literal name -/
theorem conf_gtl {c : Scope} {h : HRef} (ho : Ok c h) (hne : h.id ≠ c.e) {name : Str}
    (hp : Plain name) : Conf c (get h name) (fun r => Ok c r ∧ r.id ≠ c.e) := by
  have hr := Rel.of_ne (c := c) hne (absolute_single hp.single)
  apply Conf.lookE
  intro s hs x hx
  rw [hr.base] at hx
  cases hw : walk s h.id (comps name) with
  | none => simp [hw] at hx
  | some j =>
    simp only [hw] at hx
    injection hx with hx
    subst hx
    obtain ⟨w1, w2, w3⟩ := walk_scope hs _ ho.1 hr.head hw
    exact ⟨ho.path hr w1 w2 (fun hne => (w3 hne).1), (w3 (comps_ne hp)).1⟩

theorem conf_sl {c : Scope} {h : HRef} (ho : Ok c h) (hne : h.id ≠ c.e) {name : Str}
    (hp : Plain name) {obj : HRef} (hob : Ok c obj ∧ obj.id ≠ c.e) :
    Conf c (setLink h name obj) (fun _ => True) :=
  conf_setLink ho (Rel.of_ne hne (absolute_single hp.single)) hob.1.1 hob.2

theorem conf_additions {c : Scope} {e : HRef} (ho : Ok c e)
    (hn : ∀ n ∈ usedByAdditions, ¬ c.X n) : Conf c (additions e) (fun _ => True) := by
  unfold additions
  refine Conf.bind' (Q := fun _ => True) ?_ fun _ _ => ?_
  · refine Conf.andThen (conf_contains c _ _) fun _ _ => Conf.onlyIf fun _ => ?_
    refine Conf.bind' (conf_gt ho (by decide) (hn _ (by decide))) fun i hi => ?_
    refine Conf.bind' (conf_gtl hi.1 hi.2 (by decide)) fun g hg => ?_
    refine Conf.bind' (conf_sl hi.1 hi.2 (by decide) hg) fun _ _ => ?_
    refine Conf.bind' (conf_gtl hi.1 hi.2 (by decide)) fun t ht => ?_
    exact conf_setAttr ht.1.1 ht.2 _ _
  refine Conf.bind' (Q := fun _ => True) ?_ fun _ _ => ?_
  · refine Conf.andThen (conf_contains c _ _) fun _ _ => Conf.onlyIf fun _ => ?_
    refine Conf.andThen (conf_contains c _ _) fun _ _ => Conf.onlyIf fun _ => ?_
    have hr : Rel c e p!"instrument/positioners" := by
      refine ⟨by decide, fun _ n hm => ?_⟩
      have hc : comps p!"instrument/positioners" = [p!"instrument", p!"positioners"] := by decide
      rw [hc] at hm
      simp only [List.head?_cons, Option.some.injEq] at hm
      subst hm
      exact ⟨hn _ (by decide), by decide⟩
    refine Conf.bind' (conf_get_ne ho hr (by decide)) fun t ht => ?_
    exact conf_setAttr ht.1.1 ht.2 _ _
  refine Conf.bind' (conf_contains c _ _) fun hasM _ => ?_
  refine Conf.bind' (conf_contains c _ _) fun hasT _ => ?_
  refine Conf.bind' (Q := fun _ => True) ?_ fun _ _ => ?_
  · refine Conf.onlyIf fun _ => ?_
    refine Conf.bind' (Q := fun r => Ok c r ∧ r.id ≠ c.e) ?_ fun t ht => ?_
    · cases hasM with
      | true => exact conf_gt ho (by decide) (hn _ (by decide))
      | false => exact conf_gt ho (by decide) (hn _ (by decide))
    refine Conf.bind' (conf_mg ho (by decide) (hn _ (by decide)) _ _) fun m hm => ?_
    refine Conf.bind' (conf_sl hm.1 hm.2 (by decide) ht) fun _ _ => ?_
    refine Conf.bind' (conf_gtl hm.1 hm.2 (by decide)) fun p _ => ?_
    exact conf_setAttr ht.1.1 ht.2 _ _
  refine Conf.bind' (conf_contains c _ _) fun hasTemp _ => ?_
  refine Conf.bind' (conf_contains c _ _) fun hasDegc _ => ?_
  refine Conf.onlyIf fun _ => ?_
  refine Conf.bind' (conf_gt ho (by decide) (hn _ (by decide))) fun sa hsa => ?_
  refine Conf.bind' (conf_makeGroup hsa.1 (Rel.of_ne hsa.2 (by decide)) _ _) fun t ht => ?_
  refine Conf.bind' (Q := fun _ => True) ?_ fun _ _ => ?_
  · refine Conf.onlyIf fun _ => ?_
    refine Conf.bind' (conf_gt ho (by decide) (hn _ (by decide))) fun g hg => ?_
    refine Conf.bind' (conf_sl ht.1 ht.2 (by decide) hg) fun _ _ => ?_
    refine Conf.bind' (conf_gtl ht.1 ht.2 (by decide)) fun v _ => ?_
    exact conf_setAttr hg.1.1 hg.2 _ _
  · refine Conf.onlyIf fun _ => ?_
    refine Conf.bind' (conf_gt ho (by decide) (hn _ (by decide))) fun g hg => ?_
    refine Conf.bind' (conf_sl ht.1 ht.2 (by decide) hg) fun _ _ => ?_
    refine Conf.bind' (conf_gtl ht.1 ht.2 (by decide)) fun v _ => ?_
    exact conf_setAttr hg.1.1 hg.2 _ _

/-- `save_scan` without its first statement -/
def saveScanRest (e : HRef) (hdr x : Obj) : HM Obj := do
  let _ ← writeDataset e p!"title" (.str x.S) []
  let nums ← HM.lift (splitScanNumberString x.scanNum)
  let ds ← writeDataset e p!"scan_number" (.num (.int (nums.getD 0 0))) []
  addAttributes ds (attr1 p!"spec_name" p!"SCAN_N")
  HM.onlyIf (decide (0 < nums.getD 1 0)) (addAttributes ds [(p!"repeat", .num (.int (nums.getD 1 0)))])
  let _ ← writeDataset e p!"command" (.str x.scanCmd) []
  let _ ← runWriters e hdr hdr.h5.values hdr
  let x ← runWriters e hdr x.h5.values x
  additions e
  pure x

theorem saveScan_eq (e : HRef) (hdr x : Obj) :
    saveScan e hdr x = (addAttributes e (attr1 p!"default" p!"data") >>= fun _ => saveScanRest e hdr x) :=
  rfl

/-- names used in the entry by `saveScanRest` directly -/
def usedFirst : List Str := [p!"title", p!"scan_number", p!"command"]

/-- the rest of `save_scan` -/
theorem conf_saveScanRest {c : Scope} (h1 : ∀ n ∈ usedFirst, ¬ c.X n) (hE : Plain c.E) {e : HRef} (ho : Ok c e)
    (hdr x : Obj) (hh : RelNames hdr) (hr : RelNames x) (ha : ∀ f ∈ hdr.h5.values, Avoids c f)
    (hb : ∀ f ∈ x.h5.values, Avoids c f) (h2 : ∀ n ∈ usedByAdditions, ¬ c.X n) :
    Conf c (saveScanRest e hdr x) (fun y => ∃ L, y = { x with L := L }) := by
  unfold saveScanRest
  refine Conf.bind' (conf_wd ho (by decide) (h1 _ (by decide)) _ _) fun _ _ => ?_
  refine Conf.bind' (conf_lift _) fun nums _ => ?_
  refine Conf.bind' (conf_wd ho (by decide) (h1 _ (by decide)) _ _) fun ds hds => ?_
  refine Conf.bind' (conf_addAttributes hds.1.1 hds.2 _) fun _ _ => ?_
  refine Conf.bind' (Conf.onlyIf fun _ => conf_addAttributes hds.1.1 hds.2 _) fun _ _ => ?_
  refine Conf.bind' (conf_wd ho (by decide) (h1 _ (by decide)) _ _) fun _ _ => ?_
  refine Conf.bind' (conf_runWriters hE ho hdr _ _ hh ha) fun _ _ => ?_
  refine Conf.bind' (conf_runWriters hE ho hdr _ _ hr hb) fun y hy => ?_
  refine Conf.bind' (conf_additions ho h2) fun _ _ => ?_
  exact Conf.pure' hy

theorem conf_noData {c : Scope} {e : HRef} (ho : Ok c e) (h1 : ¬ c.X p!"data") :
    Conf c (noData e) (fun _ => True) := by
  unfold noData
  refine Conf.bind' (conf_mg ho (by decide) h1 _ _) fun g hg => ?_
  refine Conf.bind' (conf_makeDataset hg.1 (Rel.of_ne hg.2 (by decide)) _ _) fun _ _ => ?_
  refine Conf.bind' (conf_makeDataset hg.1 (Rel.of_ne hg.2 (by decide)) _ _) fun _ _ => ?_
  exact Conf.pure' trivial

end
end S2N
