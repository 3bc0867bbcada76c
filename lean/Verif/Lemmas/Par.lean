import Verif.Lemmas.WriterConf
/-
Two files that have the same entry at different places: what an operation does in one of them, it
does in the other.
-/
namespace S2N
open Py H5 Eznx Writer Spec

namespace Moved

/-- a dictionary of children that moved up by `n` -/
def shD (n : Nat) (d : Dict Nat) : Dict Nat := d.map fun kv => (kv.1, n + kv.2)

/-- a node that moved up by `n` -/
def sh (n : Nat) : HNode → HNode
  | .group ch a => .group (shD n ch) a
  | .dset d a => .dset d a

/-- the heap `l` behind the heap `p` -/
def up (p l : H5) : H5 := p ++ l.map (sh p.length)

theorem get?_shD (n : Nat) (d : Dict Nat) (k : Str) : (shD n d).get? k = (d.get? k).map (n + ·) := by
  induction d with
  | nil => rfl
  | cons kv d ih =>
    obtain ⟨a, b⟩ := kv
    show List.lookup k ((a, n + b) :: shD n d) = Option.map (n + ·) (List.lookup k ((a, b) :: d))
    rw [List.lookup_cons, List.lookup_cons]
    cases (k == a) with
    | true => rfl
    | false => exact ih

theorem has_shD (n : Nat) (d : Dict Nat) (k : Str) : (shD n d).has k = d.has k := by
  unfold Dict.has
  rw [get?_shD]
  cases d.get? k <;> rfl

theorem set_shD (n : Nat) (d : Dict Nat) (k : Str) (v : Nat) :
    (shD n d).set k (n + v) = shD n (d.set k v) := by
  induction d with
  | nil => rfl
  | cons kv d ih =>
    obtain ⟨a, b⟩ := kv
    show Dict.set ((a, n + b) :: shD n d) k (n + v) = shD n (Dict.set ((a, b) :: d) k v)
    rw [Dict.set, Dict.set]
    split
    · rfl
    · rw [ih]; rfl

theorem del_shD (n : Nat) (d : Dict Nat) (k : Str) : (shD n d).del k = shD n (d.del k) := by
  induction d with
  | nil => rfl
  | cons kv d ih =>
    obtain ⟨a, b⟩ := kv
    show Dict.del ((a, n + b) :: shD n d) k = shD n (Dict.del ((a, b) :: d) k)
    rw [Dict.del, Dict.del]
    split
    · rfl
    · rw [ih]; rfl

theorem get_up (p l : H5) (i : Nat) : (up p l)[p.length + i]? = (l[i]?).map (sh p.length) := by
  unfold up
  rw [List.getElem?_append_right (by omega), List.getElem?_map]
  congr 2
  omega

theorem set_up (p l : H5) (i : Nat) (x : HNode) :
    (up p l).set (p.length + i) (sh p.length x) = up p (l.set i x) := by
  unfold up
  rw [List.set_append_right _ _ (by omega), List.map_set]
  congr 2
  omega

theorem append_up (p l m : H5) : up p l ++ m.map (sh p.length) = up p (l ++ m) := by
  unfold up; simp

theorem length_up (p l : H5) : (up p l).length = p.length + l.length := by
  unfold up; simp

theorem walk_up (p l : H5) (cs : List Str) : ∀ i,
    walk (up p l) (p.length + i) cs = (walk l i cs).map (p.length + ·) := by
  induction cs with
  | nil => intro i; rfl
  | cons c cs ih =>
    intro i
    rw [walk, walk, get_up]
    cases h : l[i]? with
    | none => rfl
    | some x =>
      cases x with
      | dset d a => rfl
      | group ch a =>
        simp only [Option.map_some, sh, get?_shD]
        cases ch.get? c with
        | none => rfl
        | some j => exact ih j

/-- the result in the file with `p` before -/
def img (p : H5) : Except PyErr H5 → Except PyErr H5
  | .ok l => .ok (up p l)
  | .error e => .error e

theorem link_up (p : H5) (t : Nat) (cs : List Str) : ∀ (l : H5) (i : Nat),
    link (p.length + t) (up p l) (p.length + i) cs = img p (link t l i cs) := by
  induction cs with
  | nil => intro l i; rfl
  | cons c cs ih =>
    intro l i
    cases cs with
    | nil =>
      rw [link, link, get_up]
      cases h : l[i]? with
      | none => rfl
      | some x =>
        cases x with
        | dset d a => rfl
        | group ch a =>
          simp only [Option.map_some, sh, has_shD]
          cases ch.has c with
          | true => rfl
          | false =>
            simp only [Bool.false_eq_true, if_false, img]
            rw [set_shD]
            exact congrArg _ (set_up p l i (.group (ch.set c t) a))
    | cons d cs =>
      rw [link, link, get_up]
      cases h : l[i]? with
      | none => rfl
      | some x =>
        cases x with
        | dset d a => rfl
        | group ch a =>
          simp only [Option.map_some, sh, get?_shD]
          cases ch.get? c with
          | some j => exact ih l j
          | none =>
            simp only [Option.map_none]
            rw [length_up, set_shD]
            have h1 := set_up p l i (.group (ch.set c l.length) a)
            rw [sh] at h1
            rw [h1]
            have h2 := append_up p (l.set i (.group (ch.set c l.length) a)) [.group [] []]
            rw [← ih, ← h2]
            rfl

theorem unlink_up (p : H5) (cs : List Str) : ∀ (l : H5) (i : Nat),
    unlink (up p l) (p.length + i) cs = img p (unlink l i cs) := by
  induction cs with
  | nil => intro l i; rfl
  | cons c cs ih =>
    intro l i
    cases cs with
    | nil =>
      rw [unlink, unlink, get_up]
      cases h : l[i]? with
      | none => rfl
      | some x =>
        cases x with
        | dset d a => rfl
        | group ch a =>
          simp only [Option.map_some, sh, has_shD]
          cases ch.has c with
          | false => rfl
          | true =>
            simp only [if_true, img]
            rw [del_shD]
            exact congrArg _ (set_up p l i (.group (ch.del c) a))
    | cons d cs =>
      rw [unlink, unlink, get_up]
      cases h : l[i]? with
      | none => rfl
      | some x =>
        cases x with
        | dset d a => rfl
        | group ch a =>
          simp only [Option.map_some, sh, get?_shD]
          cases ch.get? c with
          | some j => exact ih l j
          | none => rfl

/-- the first node of `p` is a group with the next free place as child `E` -/
def Placed (p : H5) (E : Str) : Prop :=
  ∃ ch a, p[0]? = some (.group ch a) ∧ ch.get? E = some p.length

theorem Placed.root {p : H5} {E : Str} (h : Placed p E) (l : H5) :
    ∃ ch a, (up p l)[0]? = some (.group ch a) ∧ ch.get? E = some p.length := by
  obtain ⟨ch, a, h1, h2⟩ := h
  refine ⟨ch, a, ?_, h2⟩
  unfold up
  rw [List.getElem?_append_left (lt_of_get? h1)]
  exact h1

theorem Placed.walk {p : H5} {E : Str} (h : Placed p E) (l : H5) (cs : List Str) :
    walk (up p l) 0 (E :: cs) = (walk l 0 cs).map (p.length + ·) := by
  obtain ⟨ch, a, h1, h2⟩ := h.root l
  rw [H5.walk, h1]
  simp only [h2]
  exact walk_up p l cs 0

theorem Placed.link {p : H5} {E : Str} (h : Placed p E) (t : Nat) (l : H5) (cs : List Str) :
    link (p.length + t) (up p l) 0 (E :: cs) = img p (link t l 0 cs) := by
  obtain ⟨ch, a, h1, h2⟩ := h.root l
  cases cs with
  | nil =>
    rw [H5.link.eq_2, H5.link.eq_1, h1]
    have : ch.has E = true := by unfold Dict.has; rw [h2]; rfl
    simp only [this, if_true]
    rfl
  | cons c cs =>
    rw [H5.link, h1]
    simp only [h2]
    exact link_up p t (c :: cs) l 0

/-! ### the relation of two programs -/

/-- two heaps before an entry named `E` -/
structure Two where
  p1 : H5
  p2 : H5
  E : Str
  plain : Plain E
  h1 : Placed p1 E
  h2 : Placed p2 E

/-- the object `h` of the entry in the file -/
def upH (p : H5) (E : Str) (h : HRef) : HRef := ⟨p.length + h.id, E :: h.path⟩

/-- the same object of the entry in the two files -/
def RR (c : Two) (a b : HRef) : Prop := ∃ h, a = upH c.p1 c.E h ∧ b = upH c.p2 c.E h

/-- the same outcome -/
inductive Out {α β : Type} (Q : α → β → Prop) : Except PyErr α → Except PyErr β → Prop
  | ok {a : α} {b : β} : Q a b → Out Q (.ok a) (.ok b)
  | error (e : PyErr) : Out Q (.error e) (.error e)

/-- two programs do the same in the two files -/
def Par (c : Two) {α β : Type} (m1 : HM α) (m2 : HM β) (Q : α → β → Prop) : Prop :=
  ∀ l, ∃ l', (m1 (up c.p1 l)).1 = up c.p1 l' ∧ (m2 (up c.p2 l)).1 = up c.p2 l' ∧
    Out Q (m1 (up c.p1 l)).2 (m2 (up c.p2 l)).2

/-- the values are equal -/
def VV {α : Type} : α → α → Prop := fun a b => a = b

namespace Par
variable {c : Two} {α β α' β' : Type}

theorem ret {a : α} {b : β} {Q : α → β → Prop} (h : Q a b) : Par c (HM.ret a) (HM.ret b) Q :=
  fun l => ⟨l, rfl, rfl, .ok h⟩

theorem pure' {a : α} {b : β} {Q : α → β → Prop} (h : Q a b) : Par c (pure a : HM α) (pure b : HM β) Q :=
  ret h

theorem andThen {m1 : HM α} {m2 : HM β} {f1 : α → HM α'} {f2 : β → HM β'} {Q : α → β → Prop}
    {R : α' → β' → Prop} (h : Par c m1 m2 Q) (k : ∀ a b, Q a b → Par c (f1 a) (f2 b) R) :
    Par c (HM.andThen m1 f1) (HM.andThen m2 f2) R := by
  intro l
  obtain ⟨l', e1, e2, ho⟩ := h l
  rcases hm1 : m1 (up c.p1 l) with ⟨s1, o1⟩
  rcases hm2 : m2 (up c.p2 l) with ⟨s2, o2⟩
  rw [hm1] at e1 ho
  rw [hm2] at e2 ho
  simp only at e1 e2 ho
  subst e1 e2
  cases ho with
  | error e =>
    refine ⟨l', ?_, ?_, ?_⟩
    · unfold HM.andThen; rw [hm1]
    · unfold HM.andThen; rw [hm2]
    · unfold HM.andThen; rw [hm1, hm2]; exact .error e
  | ok hq =>
    rename_i a b
    have := k a b hq l'
    unfold HM.andThen
    rw [hm1, hm2]
    exact this

theorem bind' {m1 : HM α} {m2 : HM β} {f1 : α → HM α'} {f2 : β → HM β'} {Q : α → β → Prop}
    {R : α' → β' → Prop} (h : Par c m1 m2 Q) (k : ∀ a b, Q a b → Par c (f1 a) (f2 b) R) :
    Par c (m1 >>= f1) (m2 >>= f2) R := andThen h k

/-- a value is the same in both -/
theorem bindv {m1 m2 : HM α} {f1 : α → HM α'} {f2 : α → HM β'}
    {R : α' → β' → Prop} (h : Par c m1 m2 VV) (k : ∀ a, Par c (f1 a) (f2 a) R) :
    Par c (m1 >>= f1) (m2 >>= f2) R := andThen h fun a b e => by cases e; exact k a

theorem thenv {m1 m2 : HM α} {f1 : α → HM α'} {f2 : α → HM β'}
    {R : α' → β' → Prop} (h : Par c m1 m2 VV) (k : ∀ a, Par c (f1 a) (f2 a) R) :
    Par c (HM.andThen m1 f1) (HM.andThen m2 f2) R := andThen h fun a b e => by cases e; exact k a

theorem raise {e : PyErr} {Q : α → β → Prop} : Par c (HM.raise e : HM α) (HM.raise e : HM β) Q :=
  fun l => ⟨l, rfl, rfl, .error e⟩

theorem lift (x : Except PyErr α) : Par c (HM.lift x) (HM.lift x) VV := by
  intro l
  refine ⟨l, rfl, rfl, ?_⟩
  cases x with
  | ok a => exact .ok rfl
  | error e => exact .error e

/-- lifted, with what is known about the value -/
theorem liftQ (x : Except PyErr α) {P : α → Prop} (h : ∀ a, x = .ok a → P a) :
    Par c (HM.lift x) (HM.lift x) (fun a b => a = b ∧ P a) := by
  intro l
  refine ⟨l, rfl, rfl, ?_⟩
  cases x with
  | ok a => exact .ok ⟨rfl, h a rfl⟩
  | error e => exact .error e

theorem mono {m1 : HM α} {m2 : HM β} {Q R : α → β → Prop} (h : Par c m1 m2 Q) (k : ∀ a b, Q a b → R a b) :
    Par c m1 m2 R := by
  intro l
  obtain ⟨l', e1, e2, ho⟩ := h l
  refine ⟨l', e1, e2, ?_⟩
  revert ho
  generalize (m1 (up c.p1 l)).2 = a
  generalize (m2 (up c.p2 l)).2 = b
  intro ho
  cases ho with
  | ok hq => exact .ok (k _ _ hq)
  | error e => exact .error e

theorem each {f g : α → HM Unit} (l : List α) (h : ∀ a ∈ l, Par c (f a) (g a) VV) :
    Par c (HM.each f l) (HM.each g l) VV := by
  induction l with
  | nil => exact ret rfl
  | cons a as ih =>
    rw [HM.each, HM.each]
    exact thenv (h a (List.mem_cons_self ..)) fun _ => ih fun b hb => h b (List.mem_cons_of_mem _ hb)

theorem onlyIf {b : Bool} {m1 m2 : HM Unit} (h : Par c m1 m2 VV) :
    Par c (HM.onlyIf b m1) (HM.onlyIf b m2) VV := by
  cases b with
  | false => exact ret rfl
  | true => exact h

theorem ifSome {o : Option α} {f g : α → HM Unit} (h : ∀ a, o = some a → Par c (f a) (g a) VV) :
    Par c (HM.ifSome o f) (HM.ifSome o g) VV := by
  cases o with
  | none => exact ret rfl
  | some a => exact h a rfl

theorem need (o : Option α) : Par c (S2N.need o) (S2N.need o) VV := by
  cases o with
  | none => exact raise
  | some a => exact ret rfl

end Par

/-! ### operations -/

/-- a handle of the result in the file -/
def imgH (p : H5) (E : Str) : Except PyErr HRef → Except PyErr HRef
  | .ok h => .ok (upH p E h)
  | .error e => .error e

theorem base_rel {name : Str} (hr : absolute name = false) (h : HRef) : base h name = h := by
  unfold H5.base; rw [hr]; rfl

theorem base_abs {name : Str} (hr : absolute name = true) (h : HRef) : base h name = root := by
  unfold H5.base; rw [hr]; rfl

theorem par_contains {c : Two} {a b : HRef} (h : RR c a b) {name : Str} (hr : absolute name = false) :
    Par c (contains a name) (contains b name) VV := by
  obtain ⟨h, rfl, rfl⟩ := h
  intro l
  refine ⟨l, rfl, rfl, ?_⟩
  unfold H5.contains HM.look
  simp only [base_rel hr, upH, walk_up]
  have : ∀ n, ((walk l h.id (comps name)).map (n + ·)).isSome = (walk l h.id (comps name)).isSome := by
    intro n; cases walk l h.id (comps name) <;> rfl
  rw [this, this]
  exact .ok rfl

theorem par_hasAttr {c : Two} {a b : HRef} (h : RR c a b) (k : Str) :
    Par c (hasAttr a k) (hasAttr b k) VV := by
  obtain ⟨h, rfl, rfl⟩ := h
  intro l
  refine ⟨l, rfl, rfl, ?_⟩
  unfold hasAttr HM.look
  simp only [upH, get_up]
  cases l[h.id]? with
  | none => exact .ok rfl
  | some x => cases x <;> exact .ok rfl

theorem par_get {c : Two} {a b : HRef} (h : RR c a b) {name : Str} (hr : absolute name = false) :
    Par c (get a name) (get b name) (RR c) := by
  obtain ⟨h, rfl, rfl⟩ := h
  intro l
  refine ⟨l, rfl, rfl, ?_⟩
  unfold H5.get HM.lookE
  simp only [base_rel hr, upH, walk_up]
  cases walk l h.id (comps name) with
  | none => exact .error _
  | some i => exact .ok ⟨⟨i, h.path ++ comps name⟩, rfl, rfl⟩

theorem par_get_abs {c : Two} (a b : HRef) {name : Str} (hr : absolute name = true) {q : List Str}
    (hc : comps name = c.E :: q) : Par c (get a name) (get b name) (RR c) := by
  intro l
  refine ⟨l, rfl, rfl, ?_⟩
  unfold H5.get HM.lookE
  simp only [base_abs hr, hc, show root.id = 0 from rfl, c.h1.walk, c.h2.walk]
  cases walk l 0 q with
  | none => exact .error _
  | some i => exact .ok ⟨⟨i, q⟩, rfl, rfl⟩

theorem par_create {c : Two} {a b : HRef} (h : RR c a b) {name : Str} (hr : absolute name = false)
    (node : HNode) (hn : ∀ n, sh n node = node) : Par c (create a name node) (create b name node) (RR c) := by
  obtain ⟨h, rfl, rfl⟩ := h
  intro l
  have k : ∀ p : H5, link (up p l).length (up p l ++ [node]) (p.length + h.id) (comps name) =
      img p (link l.length (l ++ [node]) h.id (comps name)) := by
    intro p
    rw [length_up, ← link_up, ← append_up]
    simp only [List.map_cons, List.map_nil, hn]
  unfold create
  simp only [base_rel hr, upH, k]
  cases link l.length (l ++ [node]) h.id (comps name) with
  | error e => exact ⟨l, rfl, rfl, .error e⟩
  | ok l' => exact ⟨l', rfl, rfl, .ok ⟨⟨l.length, h.path ++ comps name⟩, by rw [length_up]; rfl, by rw [length_up]; rfl⟩⟩

theorem par_del {c : Two} {a b : HRef} (h : RR c a b) {name : Str} (hr : absolute name = false) :
    Par c (del a name) (del b name) VV := by
  obtain ⟨h, rfl, rfl⟩ := h
  intro l
  unfold H5.del HM.change
  simp only [base_rel hr, upH, unlink_up]
  cases unlink l h.id (comps name) with
  | error e => exact ⟨l, rfl, rfl, .error e⟩
  | ok l' => exact ⟨l', rfl, rfl, .ok rfl⟩

theorem par_setLink {c : Two} {a b : HRef} (h : RR c a b) {name : Str} (hr : absolute name = false)
    {o1 o2 : HRef} (ho : RR c o1 o2) : Par c (setLink a name o1) (setLink b name o2) VV := by
  obtain ⟨h, rfl, rfl⟩ := h
  obtain ⟨o, rfl, rfl⟩ := ho
  intro l
  unfold setLink HM.change
  simp only [base_rel hr, upH, link_up, get_up]
  cases l[o.id]? with
  | none => exact ⟨l, rfl, rfl, .error _⟩
  | some x =>
    simp only [Option.map_some]
    cases link o.id l h.id (comps name) with
    | error e => exact ⟨l, rfl, rfl, .error e⟩
    | ok l' => exact ⟨l', rfl, rfl, .ok rfl⟩

theorem par_setLink_abs {c : Two} (a b : HRef) {name : Str} (hr : absolute name = true) {q : List Str}
    (hc : comps name = c.E :: q) {o1 o2 : HRef} (ho : RR c o1 o2) :
    Par c (setLink a name o1) (setLink b name o2) VV := by
  obtain ⟨o, rfl, rfl⟩ := ho
  intro l
  unfold setLink HM.change
  simp only [base_abs hr, hc, show root.id = 0 from rfl, upH, c.h1.link, c.h2.link, get_up]
  cases l[o.id]? with
  | none => exact ⟨l, rfl, rfl, .error _⟩
  | some x =>
    simp only [Option.map_some]
    cases link o.id l 0 q with
    | error e => exact ⟨l, rfl, rfl, .error e⟩
    | ok l' => exact ⟨l', rfl, rfl, .ok rfl⟩

theorem sh_withAttrs (n : Nat) (x : HNode) (a : Dict AVal) : (sh n x).withAttrs a = sh n (x.withAttrs a) := by
  cases x <;> rfl

theorem sh_attrs (n : Nat) (x : HNode) : (sh n x).attrs = x.attrs := by cases x <;> rfl

theorem par_setAttr {c : Two} {a b : HRef} (h : RR c a b) (k : Str) (v : AVal) :
    Par c (setAttr a k v) (setAttr b k v) VV := by
  obtain ⟨h, rfl, rfl⟩ := h
  intro l
  unfold setAttr HM.change
  simp only [upH, get_up]
  cases l[h.id]? with
  | none => exact ⟨l, rfl, rfl, .error _⟩
  | some x =>
    simp only [Option.map_some, sh_attrs, sh_withAttrs, set_up]
    exact ⟨_, rfl, rfl, .ok rfl⟩

theorem par_addAttributes {c : Two} {a b : HRef} (h : RR c a b) (d : Dict AVal) :
    Par c (addAttributes a d) (addAttributes b d) VV :=
  Par.each _ fun kv _ => par_setAttr h kv.1 kv.2

theorem par_makeGroup {c : Two} {a b : HRef} (h : RR c a b) {name : Str} (hr : absolute name = false)
    (cls : Str) (d : Dict AVal) : Par c (makeGroup a name cls d) (makeGroup b name cls d) (RR c) := by
  unfold makeGroup createGroup
  refine Par.bind' (par_create h hr _ fun _ => rfl) fun g g' hg => ?_
  refine Par.bindv (par_setAttr hg _ _) fun _ => ?_
  refine Par.bindv (par_addAttributes hg _) fun _ => ?_
  exact Par.pure' hg

theorem par_openGroup {c : Two} {a b : HRef} (h : RR c a b) {name : Str} (hr : absolute name = false)
    (cls : Str) (d : Dict AVal) : Par c (openGroup a name cls d) (openGroup b name cls d) (RR c) := by
  unfold openGroup
  refine Par.bindv (par_contains h hr) fun x => ?_
  cases x with
  | false => exact par_makeGroup h hr cls d
  | true =>
    refine Par.bind' (par_get h hr) fun g g' hg => ?_
    refine Par.bindv (par_addAttributes hg _) fun _ => ?_
    exact Par.pure' hg

theorem par_makeDataset {c : Two} {a b : HRef} (h : RR c a b) {name : Str} (hr : absolute name = false)
    (x : PData) (d : Dict AVal) : Par c (makeDataset a name x d) (makeDataset b name x d) (RR c) := by
  unfold makeDataset
  refine Par.bindv (Par.lift _) fun v => ?_
  refine Par.bind' (par_create h hr _ fun _ => rfl) fun g g' hg => ?_
  refine Par.bindv (par_addAttributes hg _) fun _ => ?_
  exact Par.pure' hg

theorem par_writeDataset {c : Two} {a b : HRef} (h : RR c a b) {name : Str} (hr : absolute name = false)
    (x : PData) (d : Dict AVal) : Par c (writeDataset a name x d) (writeDataset b name x d) (RR c) := by
  unfold writeDataset
  refine Par.bindv (Par.thenv (par_contains h hr) fun _ => Par.onlyIf (par_del h hr)) fun _ => ?_
  exact par_makeDataset h hr x d

/-- the components of the name of an object of the entry -/
theorem comps_entry {E : Str} (hE : Plain E) (p : List Str) (t : Str) (ht : t = [] ∨ ∃ u, t = '/' :: u) :
    ∃ q, ∀ i, comps (ascii (nameOf ⟨i, E :: p⟩ ++ t)) = E :: q := by
  cases p with
  | nil =>
    have hn : ∀ i, nameOf ⟨i, [E]⟩ = '/' :: E := by
      intro i; unfold nameOf; rw [join_singleton]
    rcases ht with rfl | ⟨u, rfl⟩
    · refine ⟨[], fun i => ?_⟩
      rw [hn, List.append_nil, ascii_slash, ascii_plain hE, comps_cons_slash, comps_single hE.single]
    · refine ⟨comps (ascii u), fun i => ?_⟩
      rw [hn, List.cons_append, ascii_slash, ascii_append, ascii_slash, ascii_plain hE, comps_cons_slash,
        comps_append_slash hE.single]
  | cons x xs =>
    refine ⟨comps (ascii (join ['/'] (x :: xs) ++ t)), fun i => ?_⟩
    have hn : nameOf ⟨i, E :: x :: xs⟩ = '/' :: (E ++ '/' :: join ['/'] (x :: xs)) := by
      unfold nameOf
      rw [join_cons _ _ _ (by simp)]
      simp
    rw [hn]
    simp only [List.cons_append, List.append_assoc, ascii_slash, ascii_append, ascii_plain hE]
    rw [comps_cons_slash, comps_append_slash hE.single]

theorem par_target {c : Two} {a b : HRef} (h : RR c a b) {s1 s2 : HRef} (hs : RR c s1 s2) :
    Par c (setAttr a p!"target" (.str (nameOf s1))) (setAttr b p!"target" (.str (nameOf s2))) VV := by
  obtain ⟨s, rfl, rfl⟩ := hs
  exact par_setAttr h _ _

/-- getting the object by its name -/
theorem par_getName {c : Two} (a b : HRef) {s1 s2 : HRef} (hs : RR c s1 s2) :
    Par c (get a (ascii (nameOf s1))) (get b (ascii (nameOf s2))) (RR c) := by
  obtain ⟨s, rfl, rfl⟩ := hs
  obtain ⟨q, hq⟩ := comps_entry c.plain s.path [] (Or.inl rfl)
  have ha := absolute_nameOf (upH c.p1 c.E s) []
  have hq1 := hq (c.p1.length + s.id)
  rw [List.append_nil] at ha hq1
  exact par_get_abs a b ha hq1

/-- a link at a name relative to a group -/
theorem par_makeLink_rel {c : Two} {a b : HRef} (h : RR c a b) {s1 s2 : HRef} (hs : RR c s1 s2) {t : Str}
    (ht : absolute (ascii t) = false) : Par c (makeLink a s1 t) (makeLink b s2 t) VV := by
  unfold makeLink
  refine Par.bindv (Par.thenv (par_hasAttr hs _) fun _ => Par.onlyIf (par_target hs hs)) fun _ => ?_
  refine Par.bind' (par_getName a b hs) fun o o' ho => ?_
  exact par_setLink h ht ho

/-- a link at `name-of-group/u` -/
theorem par_makeLink_abs {c : Two} (a b : HRef) {s1 s2 : HRef} (hs : RR c s1 s2) {g1 g2 : HRef}
    (hg : RR c g1 g2) (u : Str) :
    Par c (makeLink a s1 (nameOf g1 ++ '/' :: u)) (makeLink b s2 (nameOf g2 ++ '/' :: u)) VV := by
  unfold makeLink
  refine Par.bindv (Par.thenv (par_hasAttr hs _) fun _ => Par.onlyIf (par_target hs hs)) fun _ => ?_
  refine Par.bind' (par_getName a b hs) fun o o' ho => ?_
  obtain ⟨g, rfl, rfl⟩ := hg
  obtain ⟨q, hq⟩ := comps_entry c.plain g.path ('/' :: u) (Or.inr ⟨u, rfl⟩)
  exact par_setLink_abs a b (absolute_nameOf _ _) (hq _) ho

end Moved
end S2N
