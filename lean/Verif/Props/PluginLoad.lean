import Verif.Spec.PluginLoad
import Verif.Props.Registry
import Verif.Py.StrLemmas
/-
C103: loading of plugins.
-/
namespace S2N.Props
open S2N S2N.Py S2N.Spec S2N.Load

/-- the handlers in a packaged file -/
def handlersIn (name : Str) : List HKey := ((packaged.find? (fun p => p.1 == name)).map (·.2)).getD []

/-- loading files that raise nothing -/
theorem loadAll_ok (files : Str → Option PyFile) : ∀ (names : List Str) (s : Py3), (∀ n ∈ names, Loadable n = true → ∃ f, files n = some f ∧ f.raises = none) →
    (loadAll files names s).2 = none ∧
    (loadAll files names s).1.mount = ((names.filter Loadable).flatMap (fun n => ((files n).map (·.classes)).getD [])).foldl Mount.enroll s.mount
  | [], _, _ => ⟨rfl, rfl⟩
  | n :: ns, s, h => by
    have ih := fun s => loadAll_ok files ns s (fun m hm => h m (by simp [hm]))
    unfold loadAll
    by_cases h1 : startsWith n p!"_" = true
    · rw [if_pos h1]
      have hl : Loadable n = false := by simp [Loadable, h1]
      rw [List.filter_cons_of_neg (by simp [hl])]
      exact ih s
    · rw [if_neg h1]
      by_cases h2 : suffix n = p!".py"
      · rw [if_neg (by simpa using h2)]
        have hl : Loadable n = true := by
          simp only [Loadable, Bool.and_eq_true, beq_iff_eq, Bool.not_eq_true']
          exact ⟨by simpa using h1, h2⟩
        obtain ⟨f, e1, e2⟩ := h n (by simp) hl
        have e : installUserPlugin files n s = ({ mount := f.classes.foldl Mount.enroll s.mount, modules := s.modules.set (stem n) n }, none) := by
          unfold installUserPlugin
          rw [e1]
          simp only
          rw [if_neg (by simpa using h2), e2]
          rfl
        rw [e]
        simp only
        rw [List.filter_cons_of_pos hl, List.flatMap_cons, List.foldl_append, e1]
        exact ih _
      · rw [if_pos h2]
        have hl : Loadable n = false := by
          simp only [Loadable, Bool.and_eq_false_iff, beq_eq_false_iff_ne]
          exact .inr h2
        rw [List.filter_cons_of_neg (by simp [hl])]
        exact ih s

theorem keyText_inj : ∀ a b : HKey, a.keyText = b.keyText → a = b := by
  have h : ∀ a ∈ HKey.all, ∀ b ∈ HKey.all, a.keyText = b.keyText → a = b := by decide +kernel
  intro a b
  exact h a (by cases a <;> decide) b (by cases b <;> decide)

/-- registering handlers with new keys adds them at the end -/
theorem enroll_new : ∀ (ps : List Plugin) (m : Mount), (∀ p ∈ ps, p.key ∉ m.knownKeys.keys) → (ps.map (·.key)).Nodup →
    (ps.foldl Mount.enroll m).knownKeys = m.knownKeys ++ ps.map (fun p => (p.key, p))
  | [], m, _, _ => by simp
  | p :: ps, m, h, hn => by
    obtain ⟨n1, n2⟩ := List.nodup_cons.1 hn
    have e : (m.enroll p).knownKeys = m.knownKeys ++ [(p.key, p)] := Dict.set_of_not_mem _ _ _ (h p (by simp))
    rw [List.foldl_cons, enroll_new ps (m.enroll p) ?_ n2, e, List.map_cons, List.append_assoc, List.singleton_append]
    intro q hq
    rw [e]
    unfold Dict.keys
    rw [List.map_append, List.mem_append]
    rintro (hm | hm)
    · exact h q (by simp [hq]) hm
    · have hm : q.key = p.key := by simpa using hm
      exact n1 (List.mem_map.2 ⟨q, hq, hm⟩)

theorem plug_keys {reg : List HKey} (hr : reg.Nodup) : ((reg.map plug).map (·.key)).Nodup := by
  rw [List.map_map]
  unfold List.Nodup at hr ⊢
  rw [List.pairwise_map]
  exact hr.imp (fun hne h => hne (keyText_inj _ _ h))

theorem all_nodup : HKey.all.Nodup := by decide

/-- **C103.**  However the directory of the packaged plugins is listed, and whatever other files are in it that are not imported: all is imported without an
exception, the registered handlers are the packaged ones, each once, in some order `reg`, and their attributes are
those of which scans know. -/
theorem C103_packaged {names : List Str} (h : DirListing names) (others : Str → Option PyFile) :
    (loadAll (packagedFiles others) names {}).2 = none ∧ ∃ reg : List HKey, reg.Perm HKey.all ∧
      (loadAll (packagedFiles others) names {}).1.mount.plugins = reg.map plug ∧
      (loadAll (packagedFiles others) names {}).1.mount.knownKeys = reg.map (fun h => (h.keyText, plug h)) ∧
      After reg [] (loadAll (packagedFiles others) names {}).1.mount ∧
      ∀ a, a ∈ (loadAll (packagedFiles others) names {}).1.mount.lazyAttributes ↔ ∃ k : HKey, a ∈ k.attrs := by
  have hin : ∀ n ∈ names, Loadable n = true → n ∈ packaged.map (·.1) := by
    intro n hn hl
    rcases h.others n hn with h1 | h1
    · exact h1
    · rw [hl] at h1; cases h1
  have hfile : ∀ n ∈ packaged.map (·.1), packagedFiles others n = some { classes := (handlersIn n).map plug } := by
    intro n hn
    unfold packagedFiles handlersIn
    revert n hn
    simp only [packaged, List.map_cons, List.map_nil, List.mem_cons, List.not_mem_nil, or_false, forall_eq_or_imp, forall_eq]
    exact ⟨rfl, rfl, rfl, rfl, rfl, rfl, rfl⟩
  obtain ⟨h1, h2⟩ := loadAll_ok (packagedFiles others) names {} (fun n hn hl => ⟨_, hfile n (hin n hn hl), rfl⟩)
  refine ⟨h1, (names.filter Loadable).flatMap handlersIn, ?_, ?_⟩
  · have hp : (names.filter Loadable).Perm (packaged.map (·.1)) := by
      refine (List.perm_ext_iff_of_nodup (h.once.filter _) (by decide)).2 ?_
      intro n
      rw [List.mem_filter]
      constructor
      · rintro ⟨a, b⟩; exact hin n a b
      · intro hn
        obtain ⟨p, hp, rfl⟩ := List.mem_map.1 hn
        refine ⟨h.complete p hp, ?_⟩
        revert p
        decide +kernel
    refine (hp.flatMap_right handlersIn).trans ?_
    decide +kernel
  · have hcls : (names.filter Loadable).flatMap (fun n => (((packagedFiles others) n).map (·.classes)).getD []) =
        ((names.filter Loadable).flatMap handlersIn).map plug := by
      rw [List.map_flatMap, List.flatMap_def, List.flatMap_def]
      congr 1
      refine List.map_congr_left ?_
      intro n hn
      obtain ⟨a, b⟩ := List.mem_filter.1 hn
      rw [hfile n (hin n a b)]
      rfl
    rw [hcls] at h2
    have hreg : ((names.filter Loadable).flatMap handlersIn).Perm HKey.all := by
      have hp : (names.filter Loadable).Perm (packaged.map (·.1)) := by
        refine (List.perm_ext_iff_of_nodup (h.once.filter _) (by decide)).2 ?_
        intro n
        rw [List.mem_filter]
        constructor
        · rintro ⟨a, b⟩; exact hin n a b
        · intro hn
          obtain ⟨p, hp, rfl⟩ := List.mem_map.1 hn
          refine ⟨h.complete p hp, ?_⟩
          revert p
          decide +kernel
      refine (hp.flatMap_right handlersIn).trans ?_
      decide +kernel
    generalize (names.filter Loadable).flatMap handlersIn = reg at h2 hreg
    have h2 : (loadAll (packagedFiles others) names {}).1.mount = Mount.enrollAll (reg.map plug) := h2
    rw [h2]
    have hnd : reg.Nodup := hreg.nodup_iff.2 all_nodup
    refine ⟨C18_plugins _, ?_, by unfold After; rw [List.append_nil], ?_⟩
    · have := enroll_new (reg.map plug) {} (by simp [Dict.keys]) (plug_keys hnd)
      rw [Mount.enrollAll, this, List.nil_append, List.map_map]
      rfl
    · intro a
      rw [(C18_lazy_attributes _).2 a]
      constructor
      · rintro ⟨p, hp, ha⟩
        obtain ⟨k, -, rfl⟩ := List.mem_map.1 hp
        exact ⟨k, ha⟩
      · rintro ⟨k, hk⟩
        refine ⟨plug k, List.mem_map.2 ⟨k, ?_, rfl⟩, hk⟩
        rw [hreg.mem_iff]
        cases k <;> decide

section
variable [UniDB] {mk : Plugin → Str → Except PyErr Bool}

omit [UniDB] in
theorem findC_word (w rest : Str) (hw : ' ' ∉ w) : findC ' ' (w ++ ' ' :: rest) = some w.length := by
  induction w with
  | nil => rfl
  | cons c w ih =>
    have hc : c ≠ ' ' := by rintro rfl; simp at hw
    rw [List.cons_append, findC, if_neg hc, ih (by simp at hw; exact hw.2)]
    rfl

omit [UniDB] in
theorem match_append (mk : Plugin → Str → Except PyErr Bool) (t : Str) (b : Dict Plugin) : ∀ a : Dict Plugin,
    Load.matchControlKey mk t (a ++ b) = match Load.matchControlKey mk t a with
      | .ok none => Load.matchControlKey mk t b
      | r => r
  | [] => rfl
  | (k, p) :: a => by
    rw [List.cons_append, Load.matchControlKey, Load.matchControlKey]
    cases mk p t with
    | error e => rfl
    | ok r =>
      cases r with
      | true => rfl
      | false => exact match_append mk t b a

theorem match_packaged (hm : MatchKeys mk) (t : Str) : ∀ reg : List HKey,
    Load.matchControlKey mk t (reg.map (fun h => (h.keyText, plug h))) = (S2N.matchControlKey reg t).map (·.map HKey.keyText)
  | [] => rfl
  | h :: hs => by
    rw [List.map_cons]
    unfold Load.matchControlKey S2N.matchControlKey
    rw [hm h t]
    cases HKey.matchKey h t with
    | error e => rfl
    | ok r =>
      cases r with
      | true => rfl
      | false => exact match_packaged hm t hs

omit [UniDB] in
theorem after_keys {reg : List HKey} (hr : reg.Perm HKey.all) {us : List Plugin} (hu : ∀ u ∈ us, ∀ h : HKey, u.key ≠ h.keyText)
    (hn : (us.map (·.key)).Nodup) {m : Mount} (hm : After reg us m) :
    m.knownKeys = reg.map (fun h => (h.keyText, plug h)) ++ us.map (fun u => (u.key, u)) := by
  have hm : m = us.foldl Mount.enroll ((reg.map plug).foldl Mount.enroll {}) := by
    unfold After Mount.enrollAll at hm
    rw [hm, List.foldl_append]
  have hnd : reg.Nodup := hr.nodup_iff.2 all_nodup
  have e := enroll_new (reg.map plug) {} (by simp [Dict.keys]) (plug_keys hnd)
  rw [List.nil_append, List.map_map] at e
  rw [hm, enroll_new us _ ?_ hn, e]
  · rfl
  · intro u hu' hk
    rw [e] at hk
    unfold Dict.keys at hk
    rw [List.map_map] at hk
    obtain ⟨h, -, e⟩ := List.mem_map.1 hk
    exact hu u hu' h e.symm

/-- what is dispatched, if plugins of a user are registered after the packaged ones, with keys of their own -/
theorem dispatch_after (hmk : MatchKeys mk) {reg : List HKey} (hr : reg.Perm HKey.all) {us : List Plugin} (hu : ∀ u ∈ us, ∀ h : HKey, u.key ≠ h.keyText)
    (hn : (us.map (·.key)).Nodup) {m : Mount} (hm : After reg us m) (w rest : Str) (hw : ' ' ∉ w) (hnot : ∀ u ∈ us, u.key ≠ w) :
    Load.getControlKey mk m (w ++ ' ' :: rest) = match S2N.getControlKey reg (w ++ ' ' :: rest) with
      | .ok none => Load.matchControlKey mk w (us.map (fun u => (u.key, u)))
      | r => r.map (·.map HKey.keyText) := by
  unfold Load.getControlKey S2N.getControlKey
  rw [findC_word w rest hw]
  simp only [List.take_left']
  rw [after_keys hr hu hn hm]
  cases hf : reg.find? (fun h => h.keyText = w) with
  | some h =>
    have h1 := List.find?_some hf
    have h2 := List.mem_of_find?_eq_some hf
    have h1 : h.keyText = w := by simpa using h1
    rw [if_pos]
    · simp only [Except.map, Option.map, h1]
    · rw [Dict.has_iff_mem]
      unfold Dict.keys
      rw [List.map_append, List.mem_append, List.map_map]
      exact .inl (List.mem_map.2 ⟨h, h2, h1⟩)
  | none =>
    rw [if_neg, match_append, match_packaged hmk]
    · cases S2N.matchControlKey reg w with
      | error e => rfl
      | ok r => cases r <;> rfl
    · rw [Dict.has_iff_mem]
      unfold Dict.keys
      rw [List.map_append, List.mem_append, List.map_map, List.map_map]
      rintro (h | h)
      · obtain ⟨k, h1, h2⟩ := List.mem_map.1 h
        have := List.find?_eq_none.1 hf k h1
        simp at this
        exact this h2
      · obtain ⟨u, h1, h2⟩ := List.mem_map.1 h
        exact hnot u h1 h2

/-- C103: with the packaged plugins alone, lines go to the handlers C16 speaks of. -/
theorem C103_dispatch (hmk : MatchKeys mk) {reg : List HKey} (hr : reg.Perm HKey.all) {m : Mount} (hm : After reg [] m) (line : Str) :
    Load.getControlKey mk m line = (S2N.getControlKey reg line).map (·.map HKey.keyText) := by
  by_cases hs : ' ' ∈ line
  · obtain ⟨w, rest, rfl, hw⟩ : ∃ w rest, line = w ++ ' ' :: rest ∧ ' ' ∉ w := by
      cases hf : findC ' ' line with
      | none => exact absurd hs ((findC_eq_none_iff _ _).1 hf)
      | some i =>
        obtain ⟨a, b, e1, e2, -⟩ := findC_some _ _ _ hf
        exact ⟨a, b, e1, e2⟩
    rw [dispatch_after hmk hr (us := []) (by simp) (by simp) hm w rest hw (by simp)]
    cases S2N.getControlKey reg (w ++ ' ' :: rest) with
    | error e => rfl
    | ok r => cases r <;> rfl
  · have hf : findC ' ' line = none := by
      induction line with
      | nil => rfl
      | cons c l ih =>
        simp only [List.mem_cons, not_or] at hs
        rw [findC, if_neg (Ne.symm hs.1), ih hs.2]
        rfl
    unfold Load.getControlKey S2N.getControlKey
    rw [hf]
    rfl

/-- C103: plugins of a user do not take lines away from the packaged ones: a line which a packaged handler recognizes
still goes to it, unless its first word is, as it is, the key of a plugin of the user. -/
theorem C103_keeps (hmk : MatchKeys mk) {reg : List HKey} (hr : reg.Perm HKey.all) {us : List Plugin} (hu : ∀ u ∈ us, ∀ h : HKey, u.key ≠ h.keyText)
    (hn : (us.map (·.key)).Nodup) {m : Mount} (hm : After reg us m) (w rest : Str) (hw : ' ' ∉ w) (hnot : ∀ u ∈ us, u.key ≠ w)
    {h : HKey} (hd : S2N.getControlKey reg (w ++ ' ' :: rest) = .ok (some h)) :
    Load.getControlKey mk m (w ++ ' ' :: rest) = .ok (some h.keyText) ∧ m.knownKeys.get? h.keyText = some (plug h) := by
  refine ⟨by rw [dispatch_after hmk hr hu hn hm w rest hw hnot, hd]; rfl, ?_⟩
  have hk : h ∈ reg := by rw [hr.mem_iff]; cases h <;> decide
  rw [hm, C18_last_wins, List.reverse_append, List.find?_append, List.find?_eq_none.2 (by
    intro u hu' e
    simp at e
    exact hu u (by simpa using hu') h e)]
  rw [Option.none_or]
  cases hf : (reg.map plug).reverse.find? (fun p => decide (p.key = h.keyText)) with
  | none =>
    have := List.find?_eq_none.1 hf (plug h) (by simpa using ⟨h, hk, rfl⟩)
    simp [plug] at this
  | some p =>
    have h1 := List.find?_some hf
    have h2 := List.mem_of_find?_eq_some hf
    rw [List.mem_reverse] at h2
    obtain ⟨k, -, rfl⟩ := List.mem_map.1 h2
    have h1 : k.keyText = h.keyText := of_decide_eq_true h1
    rw [keyText_inj k h h1]

omit [UniDB] in
/-- C103: a line whose first word is the key of a registered handler, as it is, goes to that key; its handler is the one registered last
for it. -/
theorem C103_literal (ps : List Plugin) (u : Plugin) (hu : u ∈ ps) (rest : Str) (hw : ' ' ∉ u.key) :
    Load.getControlKey mk (Mount.enrollAll ps) (u.key ++ ' ' :: rest) = .ok (some u.key) ∧
    (Mount.enrollAll ps).knownKeys.get? u.key = ps.reverse.find? (fun p => p.key = u.key) := by
  refine ⟨?_, C18_last_wins ps u.key⟩
  unfold Load.getControlKey
  rw [findC_word u.key rest hw]
  simp only [List.take_left']
  rw [if_pos]
  rw [Dict.has_iff_mem, C18_keys_exact]
  exact ⟨u, hu, rfl⟩

/-- C103: a line that no packaged handler recognizes goes to the first plugin of the user, in the order of registration, which matches it. -/
theorem C103_added (hmk : MatchKeys mk) {reg : List HKey} (hr : reg.Perm HKey.all) {pre post : List Plugin} {u : Plugin}
    (hu : ∀ v ∈ pre ++ u :: post, ∀ h : HKey, v.key ≠ h.keyText) (hn : ((pre ++ u :: post).map (·.key)).Nodup) {m : Mount} (hm : After reg (pre ++ u :: post) m)
    (w rest : Str) (hw : ' ' ∉ w) (hnot : ∀ v ∈ pre ++ u :: post, v.key ≠ w) (hd : S2N.getControlKey reg (w ++ ' ' :: rest) = .ok none)
    (h1 : ∀ v ∈ pre, mk v w = .ok false) (h2 : mk u w = .ok true) :
    Load.getControlKey mk m (w ++ ' ' :: rest) = .ok (some u.key) ∧ m.knownKeys.get? u.key = some u := by
  constructor
  · rw [dispatch_after hmk hr hu hn hm w rest hw hnot, hd]
    simp only
    clear hu hn hm hnot
    induction pre with
    | nil =>
      rw [List.nil_append, List.map_cons]
      unfold Load.matchControlKey
      rw [h2]
    | cons v pre ih =>
      rw [List.cons_append, List.map_cons]
      unfold Load.matchControlKey
      rw [h1 v (by simp)]
      exact ih (fun x hx => h1 x (by simp [hx]))
  · have hk := after_keys hr hu hn hm
    have hnd : m.knownKeys.keys.Nodup := by rw [hm]; exact C18_keys_once _
    refine (Dict.mem_iff_get? _ hnd _ _).1 ?_
    rw [hk]
    exact List.mem_append.2 (.inr (List.mem_map.2 ⟨u, by simp, rfl⟩))

/-- C103: a line which no handler recognizes stays without a handler. -/
theorem C103_none (hmk : MatchKeys mk) {reg : List HKey} (hr : reg.Perm HKey.all) {us : List Plugin} (hu : ∀ u ∈ us, ∀ h : HKey, u.key ≠ h.keyText)
    (hn : (us.map (·.key)).Nodup) {m : Mount} (hm : After reg us m) (w rest : Str) (hw : ' ' ∉ w) (hnot : ∀ u ∈ us, u.key ≠ w)
    (hd : S2N.getControlKey reg (w ++ ' ' :: rest) = .ok none) (h1 : ∀ u ∈ us, mk u w = .ok false) :
    Load.getControlKey mk m (w ++ ' ' :: rest) = .ok none := by
  rw [dispatch_after hmk hr hu hn hm w rest hw hnot, hd]
  simp only
  clear hu hn hm hnot
  induction us with
  | nil => rfl
  | cons v us ih =>
    rw [List.map_cons]
    unfold Load.matchControlKey
    rw [h1 v (by simp)]
    exact ih (fun x hx => h1 x (by simp [hx]))

end

/-- C103: `install_user_plugin` of a file that does not exist, or of one which is no Python file, raises and changes nothing. -/
theorem C103_refuses (files : Str → Option PyFile) (name : Str) (s : Py3) (h : files name = none ∨ suffix name ≠ p!".py") :
    (installUserPlugin files name s).1 = s ∧ (installUserPlugin files name s).2 ≠ none := by
  unfold installUserPlugin
  cases hf : files name with
  | none => exact ⟨rfl, by simp⟩
  | some f =>
    rw [hf] at h
    simp only [reduceCtorEq, false_or] at h
    simp only
    rw [if_pos h]
    exact ⟨rfl, by simp⟩

/-- C103: `install_user_plugin` registers the handlers of the file after those that are there, in the order of the file; if
importing it raises, the handlers defined up to there stay registered, and the module stays in `sys.modules`. -/
theorem C103_installs (files : Str → Option PyFile) (name : Str) (f : PyFile) (ps : List Plugin) (s : Py3) (hs : s.mount = Mount.enrollAll ps)
    (hf : files name = some f) (hn : suffix name = p!".py") :
    (installUserPlugin files name s).1.mount = Mount.enrollAll (ps ++ f.classes) ∧ (installUserPlugin files name s).2 = f.raises.map .raised ∧
    (installUserPlugin files name s).1.modules.get? (stem name) = some name ∧
    ∀ n, n ≠ stem name → (installUserPlugin files name s).1.modules.get? n = s.modules.get? n := by
  unfold installUserPlugin
  rw [hf]
  simp only
  rw [if_neg (by simpa using hn)]
  refine ⟨?_, rfl, Dict.get?_set_self _ _ _, fun n hn => Dict.get?_set_ne _ _ (Ne.symm hn)⟩
  simp only [hs, Mount.enrollAll, List.foldl_append]

/-- C103: the first file that raises ends the loading: nothing of the files after it is loaded. -/
theorem C103_stops (files : Str → Option PyFile) : ∀ (pre : List Str) (n : Str) (post : List Str) (s : Py3), (loadAll files pre s).2 = none → Loadable n = true →
    (∀ f, files n = some f → f.raises ≠ none) →
    loadAll files (pre ++ n :: post) s = installUserPlugin files n (loadAll files pre s).1
  | [], n, post, s, _, hl, hf => by
    simp only [Loadable, Bool.and_eq_true, beq_iff_eq, Bool.not_eq_true'] at hl
    rw [List.nil_append]
    show loadAll files (n :: post) s = installUserPlugin files n s
    unfold loadAll
    rw [if_neg (by simp [hl.1]), if_neg (by simpa using hl.2)]
    have : (installUserPlugin files n s).2 ≠ none := by
      cases h : files n with
      | none => exact (C103_refuses files n s (.inl h)).2
      | some f =>
        have := (C103_installs files n f [] { s with mount := {} } rfl h hl.2).2.1
        unfold installUserPlugin
        rw [h]
        simp only
        rw [if_neg (by simpa using hl.2)]
        simpa using hf f h
    cases h : installUserPlugin files n s with
    | mk a b =>
      rw [h] at this
      cases b with
      | none => exact absurd rfl this
      | some e => rfl
  | p :: pre, n, post, s, hp, hl, hf => by
    rw [List.cons_append]
    have ih := fun s h => C103_stops files pre n post s h hl hf
    unfold loadAll at hp ⊢
    by_cases h1 : startsWith p p!"_" = true
    · rw [if_pos h1] at hp ⊢
      rw [if_pos h1]; exact ih s hp
    · rw [if_neg h1] at hp ⊢
      rw [if_neg h1]
      by_cases h2 : suffix p ≠ p!".py"
      · rw [if_pos h2] at hp ⊢
        rw [if_pos h2]; exact ih s hp
      · rw [if_neg h2] at hp ⊢
        rw [if_neg h2]
        cases h : installUserPlugin files p s with
        | mk a b =>
          rw [h] at hp
          cases b with
          | some e => cases hp
          | none => exact ih a hp

/-! ### Examples -/

/-- the directory as it is in the repository, with the files Python adds -/
def packageNames : List Str := [p!"uxml.xsd", p!"uxml.py", p!"README.md", p!"__init__.py", p!"spec_common.py", p!"uim.py", p!"__pycache__", p!"XPCS.py",
  p!"fallback.py", p!"unicat.py", p!"apstools_specwriter.py"]

theorem package_listing : DirListing packageNames := by
  refine ⟨by decide +kernel, by decide +kernel, by decide +kernel⟩

/-- a plugin of a user for lines as #TEMP, and one for lines as #G0 only -/
def userPlugins : List Plugin := [⟨100, p!"#TEMP\\w*", [p!"TEMP"]⟩, ⟨101, p!"#G0", []⟩]

/-- how these match -/
def userMatch : Plugin → Str → Except PyErr Bool := fun p t =>
  if p.ident = 100 then .ok (startsWith t p!"#TEMP") else if p.ident = 101 then .ok (decide (t = p!"#G0"))
  else match HKey.all[p.ident]? with
    | some h => @HKey.matchKey asciiDB h t
    | none => .ok false

/-- C103: the hypotheses are met: a listing, and two plugins of a user.  The line #G1 still goes to the packaged handler, #G0 to the plugin of the user, as does
#TEMP2; a plugin for `#S` replaces the packaged one; a file that is missing is reported as one that exists. -/
theorem C103_nonvacuous : DirListing packageNames ∧ @MatchKeys asciiDB userMatch ∧ (∀ u ∈ userPlugins, ∀ h : HKey, u.key ≠ h.keyText) ∧
    (userPlugins.map (·.key)).Nodup ∧
    (Load.getControlKey userMatch (Mount.enrollAll (HKey.all.map plug ++ userPlugins)) p!"#G1 1 2" = .ok (some p!"#G\\d+")) ∧
    (Load.getControlKey userMatch (Mount.enrollAll (HKey.all.map plug ++ userPlugins)) p!"#G0 1 2" = .ok (some p!"#G0")) ∧
    (Load.getControlKey userMatch (Mount.enrollAll (HKey.all.map plug ++ userPlugins)) p!"#TEMP2 1" = .ok (some p!"#TEMP\\w*")) ∧
    ((Mount.enrollAll (HKey.all.map plug ++ [⟨100, p!"#S", []⟩])).knownKeys.get? p!"#S" = some ⟨100, p!"#S", []⟩) ∧
    (installUserPlugin (fun _ => none) p!"plug.py" {} = ({}, some .fileExists)) := by
  refine ⟨package_listing, ?_, ?_, by decide, by decide +kernel, by decide +kernel, by decide +kernel, by decide +kernel, rfl⟩
  · intro h t
    have h1 : (plug h).ident ≠ 100 ∧ (plug h).ident ≠ 101 ∧ HKey.all[(plug h).ident]? = some h := by cases h <;> decide
    unfold userMatch
    rw [if_neg h1.1, if_neg h1.2.1, h1.2.2]
  · have : ∀ u ∈ userPlugins, ∀ h ∈ HKey.all, u.key ≠ h.keyText := by decide
    intro u hu h
    exact this u hu h (by cases h <;> decide)

/-- C103: a file that raises after its first class leaves this class registered -/
theorem C103_half : (installUserPlugin (fun _ => some { classes := [⟨7, p!"#S", []⟩], raises := some .ValueError }) p!"json.py" {}).1.mount.plugins = [⟨7, p!"#S", []⟩] ∧
    (installUserPlugin (fun _ => some { classes := [⟨7, p!"#S", []⟩], raises := some .ValueError }) p!"json.py" {}).1.modules = [(p!"json", p!"json.py")] ∧
    (installUserPlugin (fun _ => some { classes := [⟨7, p!"#S", []⟩], raises := some .ValueError }) p!"json.py" {}).2 = some (.raised .ValueError) := by decide +kernel

end S2N.Props
