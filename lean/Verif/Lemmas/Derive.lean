import Verif.Spec.Derive
import Verif.Lemmas.CifDic
import Verif.Lemmas.ValidateLoop
/-! Derivations: what every call leaves as it was, and when calls end. -/
namespace Verif.Derive
open Validate
set_option linter.unusedSectionVars false
variable [CaseFold]

/-! ## What calls leave as it was -/

/-- Two states agree in what a call restores. -/
def Same (s s' : St) : Prop :=
  s'.called = s.called ∧ s'.provide = s.provide ∧ (s.called ≠ [] → s'.useDefaults = s.useDefaults)

theorem Same.refl (s : St) : Same s s := ⟨rfl, rfl, fun _ => rfl⟩

theorem Same.trans {a b c : St} (h1 : Same a b) (h2 : Same b c) : Same a c :=
  ⟨h2.1.trans h1.1, h2.2.1.trans h1.2.1, fun h => (h2.2.2 (by rw [h1.1]; exact h)).trans (h1.2.2 h)⟩

/-- A call restores the state. -/
def Keeps (f : St → Res) : Prop := ∀ s s' r, f s = some (s', r) → Same s s'

theorem run_keeps {ask der : Str → St → Res} (ha : ∀ n, Keeps (ask n)) (hd : ∀ n, Keeps (der n)) :
    ∀ p, Keeps (run ask der p)
  | .ret v, s, s', r, h => by simp only [run, Option.some.injEq, Prod.mk.injEq] at h; rw [← h.1]; exact .refl s
  | .fail e, s, s', r, h => by simp only [run, Option.some.injEq, Prod.mk.injEq] at h; rw [← h.1]; exact .refl s
  | .ask n k, s, s', r, h => by
    simp only [run] at h
    split at h
    · cases h
    · rename_i s1 r1 he
      exact (ha n s s1 r1 he).trans (run_keeps ha hd (k r1) s1 s' r h)
  | .derive n k, s, s', r, h => by
    simp only [run] at h
    split at h
    · cases h
    · rename_i s1 r1 he
      exact (hd n s s1 r1 he).trans (run_keeps ha hd (k r1) s1 s' r h)
  | .look k, s, s', r, h => by
    simp only [run] at h
    exact run_keeps ha hd (k s.block) s s' r h
  | .edit f k, s, s', r, h => by
    simp only [run] at h
    have := run_keeps ha hd (k (f s.block).2) _ s' r h
    exact ⟨this.1, this.2.1, this.2.2⟩
  | .sub prov p k, s, s', r, h => by
    simp only [run] at h
    split at h
    · cases h
    · rename_i s1 r1 he
      have h1 := run_keeps ha hd p _ s1 r1 he
      have h2 := run_keeps ha hd (k r1) _ s' r h
      exact ⟨h2.1.trans h1.1, h2.2.1, fun hc => (h2.2.2 (by simp only; rw [h1.1]; exact hc)).trans (h1.2.2 hc)⟩

theorem twice_keeps {call : Option Bool → St → Res} {final : Except PyErr PyVal → Except PyErr PyVal} (h : ∀ a, Keeps (call a)) :
    Keeps (twice call final) := by
  intro s s' r hr
  unfold twice at hr
  split at hr
  · rename_i s1 he
    split at hr
    · rename_i s2 r2 he2
      simp only [Option.some.injEq, Prod.mk.injEq] at hr
      rw [← hr.1]
      exact (h _ s s1 _ he).trans (h _ s1 s2 _ he2)
    · cases hr
  · exact h _ s s' r hr

theorem getItem_keeps {E : Engine} {call : Call} (h : ∀ k st a, Keeps (call k st a)) (key : Str) : Keeps (getItem E call key) := by
  intro s s' r hr
  unfold getItem at hr
  split at hr
  · simp only [Option.some.injEq, Prod.mk.injEq] at hr; rw [← hr.1]; exact .refl s
  split at hr
  · exact twice_keeps (fun a => h key E.cache a) s s' r hr
  · simp only [Option.some.injEq, Prod.mk.injEq] at hr; rw [← hr.1]; exact .refl s
  · split at hr
    · simp only [Option.some.injEq, Prod.mk.injEq] at hr; rw [← hr.1]; exact .refl s
    split at hr
    · simp only [Option.some.injEq, Prod.mk.injEq] at hr; rw [← hr.1]; exact .refl s
    split at hr
    · split at hr
      · simp only [Option.some.injEq, Prod.mk.injEq] at hr; rw [← hr.1]; exact ⟨rfl, rfl, fun _ => rfl⟩
      · have := twice_keeps (fun a => h key true a) _ s' r hr
        exact ⟨this.1, this.2.1, this.2.2⟩
    · simp only [Option.some.injEq, Prod.mk.injEq] at hr; rw [← hr.1]; exact .refl s

theorem track_keeps {key : Str} {allow : Option Bool} {go : Bool → St → Res} (h : ∀ b, Keeps (go b)) : Keeps (track key allow go) := by
  intro s s' r hr
  unfold track at hr
  split at hr
  · simp only [Option.some.injEq, Prod.mk.injEq] at hr; rw [← hr.1]; exact .refl s
  · split at hr
    · cases hr
    · rename_i s2 r2 he
      have hk := h _ _ _ _ he
      simp only [leave, Option.some.injEq, Prod.mk.injEq] at hr
      rw [← hr.1]
      refine ⟨?_, hk.2.1, fun hc => ?_⟩
      · simp only [hk.1, enter, List.dropLast_concat]
      · have := hk.2.2 (by simp [enter])
        simpa [enter, hc] using this

theorem derive_keeps (E : Engine) : ∀ (n : Nat) (key : Str) (store : Bool) (allow : Option Bool), Keeps (derive E n key store allow)
  | 0, _, _, _ => fun s s' r h => by simp [derive] at h
  | n + 1, key, store, allow => by
    unfold derive
    exact track_keeps fun use => run_keeps (getItem_keeps fun k st a => derive_keeps E n k st a) (fun c => derive_keeps E n c true none) _

/-! ## Calls end -/

/-- Two ways of answering requests give the same defined answer for names in `S` while `called_list` is `c`. -/
def Agree (S c : List Str) (f g : Str → St → Res) : Prop :=
  ∀ n ∈ S, ∀ s, s.called = c → f n s = g n s ∧ ∃ s' r, f n s = some (s', r) ∧ s'.called = c

theorem run_agree {S c : List Str} {ask der ask' der' : Str → St → Res} (ha : Agree S c ask ask') (hd : Agree S c der der') :
    ∀ p : Prog, p.Within S → ∀ s, s.called = c →
      run ask der p s = run ask' der' p s ∧ ∃ s' r, run ask der p s = some (s', r) ∧ s'.called = c
  | .ret v, _, s, hs => ⟨rfl, s, .ok v, rfl, hs⟩
  | .fail e, _, s, hs => ⟨rfl, s, .error e, rfl, hs⟩
  | .ask n k, hw, s, hs => by
    obtain ⟨h1, s1, r1, h2, h3⟩ := ha n hw.1 s hs
    simp only [run, ← h1, h2]
    exact run_agree ha hd (k r1) (hw.2 r1) s1 h3
  | .derive n k, hw, s, hs => by
    obtain ⟨h1, s1, r1, h2, h3⟩ := hd n hw.1 s hs
    simp only [run, ← h1, h2]
    exact run_agree ha hd (k r1) (hw.2 r1) s1 h3
  | .look k, hw, s, hs => by
    simp only [run]
    exact run_agree ha hd (k s.block) (hw s.block) s hs
  | .edit f k, hw, s, hs => by
    simp only [run]
    exact run_agree ha hd (k (f s.block).2) (hw _) _ hs
  | .sub prov p k, hw, s, hs => by
    obtain ⟨h1, s1, r1, h2, h3⟩ := run_agree ha hd p hw.1 { s with provide := prov || s.provide } hs
    simp only [run, ← h1, h2]
    exact run_agree ha hd (k r1) (hw.2 r1) _ h3

/-- The same for calls. -/
def AgreeC (S c : List Str) (f g : Call) : Prop := ∀ st a, Agree S c (fun n => f n st a) (fun n => g n st a)

theorem twice_agree {S c : List Str} {f g : Call} {final : Except PyErr PyVal → Except PyErr PyVal} (h : AgreeC S c f g) {n : Str}
    (hn : n ∈ S) (st : Bool) (s : St) (hs : s.called = c) :
    twice (f n st) final s = twice (g n st) final s ∧ ∃ s' r, twice (f n st) final s = some (s', r) ∧ s'.called = c := by
  obtain ⟨h1, s1, r1, h2, h3⟩ := h st (some false) n hn s hs
  simp only at h1 h2
  unfold twice
  rw [← h1, h2]
  cases r1 with
  | ok v => exact ⟨rfl, s1, .ok v, rfl, h3⟩
  | error e =>
    by_cases he : e = .failure
    · subst he
      obtain ⟨g1, s2, r2, g2, g3⟩ := h st (some true) n hn s1 h3
      simp only at g1 g2
      simp only [← g1, g2]
      exact ⟨trivial, s2, final r2, rfl, g3⟩
    · cases e <;> first | exact absurd rfl he | exact ⟨rfl, s1, _, rfl, h3⟩

theorem getItem_agree {S c : List Str} {E : Engine} {f g : Call} (h : AgreeC S c f g) :
    Agree S c (getItem E f) (getItem E g) := by
  intro n hn s hs
  unfold getItem
  split
  · exact ⟨rfl, s, _, rfl, hs⟩
  split
  · exact twice_agree h hn E.cache s hs
  · exact ⟨rfl, s, _, rfl, hs⟩
  · split
    · exact ⟨rfl, s, _, rfl, hs⟩
    split
    · exact ⟨rfl, s, _, rfl, hs⟩
    split
    · split
      · exact ⟨rfl, _, _, rfl, hs⟩
      · exact twice_agree h hn true _ hs
    · exact ⟨rfl, s, _, rfl, hs⟩

/-- The names of `S` that are not being derived. -/
def free (S : List Str) (s : St) : Nat := (S.filter fun n => decide (n ∉ s.called)).length

theorem free_lt {S c : List Str} {key : Str} (hk : key ∈ S) (hc : key ∉ c) :
    (S.filter fun n => decide (n ∉ c ++ [key])).length < (S.filter fun n => decide (n ∉ c)).length := by
  have e : (S.filter fun n => decide (n ∉ c ++ [key])) = (S.filter fun n => decide (n ∉ c)).filter fun n => decide (n ≠ key) := by
    rw [List.filter_filter]
    refine List.filter_congr fun x _ => ?_
    rw [Bool.eq_iff_iff]
    simp only [List.mem_append, List.mem_singleton, not_or, decide_eq_true_eq, Bool.and_eq_true]
    exact And.comm
  rw [e, List.length_filter_lt_length_iff_exists]
  exact ⟨key, List.mem_filter.2 ⟨hk, by simp [hc]⟩, by simp⟩

theorem derive_agree {S : List Str} {E : Engine} (hW : ∀ key ∈ S, ∀ store allow, (deriveBody E key store allow).Within S) :
    ∀ (k n m : Nat), k < n → k < m → ∀ c : List Str, (S.filter fun x => decide (x ∉ c)).length ≤ k →
      AgreeC S c (derive E n) (derive E m) := by
  intro k
  induction k with
  | zero =>
    intro n m hn hm c hc st a key hk s hs
    obtain ⟨n, rfl⟩ : ∃ n', n = n' + 1 := ⟨n - 1, by omega⟩
    obtain ⟨m, rfl⟩ : ∃ m', m = m' + 1 := ⟨m - 1, by omega⟩
    have hin : key ∈ s.called := by
      rw [hs]
      refine Classical.byContradiction fun hno => ?_
      have : key ∈ S.filter fun x => decide (x ∉ c) := List.mem_filter.2 ⟨hk, by simp [hno]⟩
      have := List.length_pos_of_mem this
      omega
    simp only [derive, track, hin, if_true]
    exact ⟨trivial, s, _, rfl, hs⟩
  | succ k ih =>
    intro n m hn hm c hc st a key hk s hs
    obtain ⟨n, rfl⟩ : ∃ n', n = n' + 1 := ⟨n - 1, by omega⟩
    obtain ⟨m, rfl⟩ : ∃ m', m = m' + 1 := ⟨m - 1, by omega⟩
    simp only [derive]
    unfold track
    by_cases hin : key ∈ s.called
    · simp only [hin, if_true]
      exact ⟨trivial, s, _, rfl, hs⟩
    · simp only [hin, if_false]
      have hlt := free_lt hk (c := c) (by rw [← hs]; exact hin)
      have hA := ih n m (by omega) (by omega) (c ++ [key]) (by omega)
      obtain ⟨h1, s1, r1, h2, h3⟩ := run_agree (getItem_agree (E := E) hA) (hA true none) (deriveBody E key st (uses a s)) (hW key hk _ _)
        (enter key a s) (by simp only [enter, hs])
      rw [← h1, h2]
      exact ⟨rfl, _, _, rfl, by simp only [h3, List.dropLast_concat]⟩

/-! ## The body asks only for names of the dictionary -/

theorem lift_within {S : List Str} {α : Type} {e : Except PyErr α} {k : α → Prog} (h : ∀ a, e = .ok a → (k a).Within S) :
    (lift e k).Within S := by
  cases e with
  | ok a => exact h a rfl
  | error x => trivial

theorem andThen_within {S : List Str} {k : PyVal → Prog} (h : ∀ v, (k v).Within S) : ∀ r, (andThen k r).Within S
  | .ok v => h v
  | .error _ => trivial

theorem get_within {S : List Str} {n : PyVal} {k : PyVal → Prog} (hn : ∀ s, n = .str s → s ∈ S) (h : ∀ v, (k v).Within S) :
    (get n k).Within S := by
  cases n with
  | str s => exact ⟨hn s rfl, andThen_within h⟩
  | none => trivial
  | num _ => trivial
  | slist _ => trivial
  | sdict _ => trivial
  | list _ => trivial

theorem getAll_within {S : List Str} : ∀ (ns : List PyVal) (k : List PyVal → Prog), (∀ s, PyVal.str s ∈ ns → s ∈ S) →
    (∀ vs, (k vs).Within S) → (getAll ns k).Within S
  | [], k, _, h => h []
  | n :: ns, k, hn, h => get_within (fun s e => hn s (by rw [e]; exact List.mem_cons_self))
      fun v => getAll_within ns _ (fun s hs => hn s (List.mem_cons_of_mem _ hs)) fun vs => h _

theorem sub_within {S : List Str} {b : Bool} {p : Prog} {k : Except PyErr PyVal → Prog} (hp : p.Within S)
    (h : ∀ r, (k r).Within S) : (Prog.sub b p k).Within S := ⟨hp, h⟩

theorem attempt_within {S : List Str} {p : Prog} {o : PyVal} {k : PyVal → Prog} (hp : p.Within S) (h : ∀ v, (k v).Within S) :
    (attempt p o k).Within S := by
  refine sub_within hp fun r => ?_
  cases r with
  | ok v => exact h v
  | error e =>
    show (if quiet e then k o else .fail e).Within S
    split
    · exact h o
    · trivial

variable {E : Engine} {S : List Str}

theorem mapE_mem {α β : Type} {f : α → Except PyErr β} : ∀ {l : List α} {r : List β}, mapE f l = .ok r → ∀ y ∈ r, ∃ x ∈ l, f x = .ok y
  | [], r, h, y, hy => by simp only [mapE, Except.ok.injEq] at h; subst h; cases hy
  | a :: l, r, h, y, hy => by
    simp only [mapE] at h
    split at h
    · cases h
    · rename_i v hv
      split at h
      · cases h
      · rename_i t ht
        simp only [Except.ok.injEq] at h
        subst h
        rcases List.mem_cons.1 hy with rfl | hy
        · exact ⟨a, List.mem_cons_self, hv⟩
        · obtain ⟨x, hx, e⟩ := mapE_mem ht y hy
          exact ⟨x, List.mem_cons_of_mem _ hx, e⟩

theorem nth_mem {α : Type} {l : List α} {i : Nat} {v : α} (h : nth l i = .ok v) : v ∈ l := by
  unfold nth at h
  split at h
  · rename_i w hw
    simp only [Except.ok.injEq] at h
    subst h
    exact List.mem_of_getElem? hw
  · cases h

theorem attrOf_ok {v : PyVal} {a : Str} {x : PyVal} (h : attrOf E v a = .ok x) :
    ∃ k b, E.dic.getItem k = .ok b ∧ b.getItem a = .ok x := by
  unfold attrOf at h
  split at h
  · cases h
  · rename_i b hb
    unfold defn at hb
    split at hb
    · exact ⟨_, b, hb, h⟩
    · cases hb

theorem attrI_ok {d : CifDic} {k a : Str} {x : PyVal} (h : d.attrI k a = .ok x) : ∃ b, d.getItem k = .ok b ∧ b.getItem a = .ok x := by
  unfold CifDic.attrI at h
  split at h
  · cases h
  · exact ⟨_, ‹_›, h⟩

theorem Closed.attr (hC : Closed E S) {v : PyVal} {a : Str} {x : PyVal} {s : Str} (h : attrOf E v a = .ok x)
    (ha : a ∈ [CifDic.catAttr, defIndexAttr, keyIdAttr]) (hm : x = .str s) : s ∈ S := by
  obtain ⟨k, b, h1, h2⟩ := attrOf_ok h
  exact hC.named k b a s h1 ha (by rw [h2, hm])

theorem Closed.alias (hC : Closed E S) {key : Str} {l : List PyVal} (h : aliasesOf E key = .ok l) {s : Str} (hs : PyVal.str s ∈ l) :
    s ∈ S := by
  unfold aliasesOf at h
  split at h
  · simp only [Except.ok.injEq] at h; subst h; cases hs
  · rename_i v hv
    exact (hC.aliases key v (dget_mem hv)).2 l s h hs

theorem catObjName_ok (hC : Closed E S) {c o v : PyVal} (h : catObjName E c o = .ok v) {s : Str} (hs : v = .str s) : s ∈ S := by
  unfold catObjName at h
  split at h
  · split at h
    · cases h
    · rename_i l hl
      subst hs
      exact hC.objects _ l s (dget_mem hl) (nth_mem h)
  · cases h

theorem catObjLower_ok (hC : Closed E S) {c o v : PyVal} (h : catObjLower E c o = .ok v) {s : Str} (hs : v = .str s) : s ∈ S := by
  unfold catObjLower at h
  split at h
  · cases h
  · split at h
    · cases h
    · exact catObjName_ok hC h hs

theorem projectAll_within (hC : Closed E S) {a b : PyVal} {k : List (Str × PyVal) → Prog} (hk : ∀ r, (k r).Within S) :
    ∀ (ns : List PyVal) (acc : List (Str × PyVal)), (projectAll E a b ns acc k).Within S
  | [], acc => hk acc
  | n :: ns, acc => by
    unfold projectAll
    refine lift_within fun src hsrc => lift_within fun dst _ => lift_within fun d _ => ?_
    refine sub_within (get_within (fun s hs => catObjLower_ok hC hsrc hs) fun _ => trivial) fun r => ?_
    cases r with
    | ok v => exact projectAll_within hC hk ns _
    | error e => cases e <;> first | exact projectAll_within hC hk ns _ | trivial

theorem projectSome_within (hC : Closed E S) {a b key : PyVal} {kv : List PyVal} (hkey : ∀ s, key = .str s → s ∈ S)
    {k : List (Str × PyVal) → Prog} (hk : ∀ r, (k r).Within S) :
    ∀ (ns : List PyVal) (last : Option PyVal) (acc : List (Str × PyVal)), (projectSome E a b key kv ns last acc k).Within S
  | [], _, acc => hk acc
  | n :: ns, last, acc => by
    unfold projectSome
    refine lift_within fun src hsrc => lift_within fun dst _ => lift_within fun d _ => ?_
    refine get_within hkey fun all => lift_within fun _ _ => lift_within fun _ _ => ?_
    refine sub_within (get_within (fun s hs => catObjLower_ok hC hsrc hs) fun _ => trivial) fun r => ?_
    refine lift_within fun _ _ => lift_within fun _ _ => lift_within fun _ _ => ?_
    exact projectSome_within hC hkey hk ns _ _

theorem duplicate_within (hC : Closed E S) {a b : PyVal} {kv : Option (List PyVal)} {skip : List PyVal}
    {k : List (Str × PyVal) → Prog} (hk : ∀ r, (k r).Within S) : (duplicate E a b kv skip k).Within S := by
  unfold duplicate
  refine lift_within fun _ _ => lift_within fun _ _ => lift_within fun key hkey => ?_
  cases kv with
  | none => exact projectAll_within hC hk _ _
  | some kv =>
    exact projectSome_within hC (fun s hs => hC.attr hkey (by simp) hs) hk _ _ _

theorem storing_within {f : Block → Block × Except PyErr PyVal} {k : PyVal → Prog} (h : ∀ v, (k v).Within S) :
    (Prog.edit f (andThen k)).Within S := andThen_within h

theorem constructFrom_within (hC : Closed E S) {c : PyVal} {b : Block} {isP : Bool} {cats : List PyVal} {ids : List (PyVal × PyVal)} :
    (constructFrom E c b isP cats ids).Within S := by
  unfold constructFrom
  split
  · trivial
  · refine lift_within fun _ _ => lift_within fun _ _ => lift_within fun _ _ => lift_within fun _ _ => lift_within fun _ _ => ?_
    cases isP with
    | true =>
      refine lift_within fun _ _ => lift_within fun _ _ => lift_within fun _ _ => lift_within fun _ _ => ?_
      exact duplicate_within hC fun _ => duplicate_within hC fun _ => storing_within fun _ => trivial
    | false => exact lift_within fun _ _ => duplicate_within hC fun _ => storing_within fun _ => trivial

theorem construct_within (hC : Closed E S) {c : PyVal} : (construct E c).Within S := by
  unfold construct
  refine lift_within fun b hb => lift_within fun ct _ => ?_
  have hb' : ∃ k, E.dic.getItem k = .ok b := by
    unfold defn at hb
    split at hb
    · exact ⟨_, hb⟩
    · cases hb
  obtain ⟨k, hk⟩ := hb'
  split
  · trivial
  split
  · refine lift_within fun ms hms => lift_within fun mo hmo => ?_
    refine getAll_within _ _ (fun s hs => hC.parts k b ms mo s hk hms hmo hs) fun lv => ?_
    refine lift_within fun cats hcats => lift_within fun kn hkn => ?_
    refine getAll_within _ _ (fun s hs => ?_) fun kv => ?_
    · obtain ⟨x, _, hx⟩ := mapE_mem hkn _ hs
      exact hC.attr hx (by simp) rfl
    · refine lift_within fun _ _ => lift_within fun _ _ => ?_
      split
      · refine lift_within fun _ _ => lift_within fun _ _ => lift_within fun _ _ => lift_within fun _ _ => lift_within fun _ _ =>
          lift_within fun _ _ => constructFrom_within hC
      · exact lift_within fun _ _ => constructFrom_within hC
  · trivial

theorem pushFrom_within (hC : Closed E S) {t : PyVal} {key : Str} {k : List (Str × PyVal) → Prog} (hk : ∀ r, (k r).Within S) :
    ∀ (l : List Str) (first : Bool) (result : List (Str × PyVal)), (pushFrom E t key l first result k).Within S
  | [], _, result => hk result
  | sc :: rest, first, result => by
    unfold pushFrom
    refine lift_within fun b _ => lift_within fun _ _ => lift_within fun _ _ => lift_within fun _ _ => lift_within fun _ _ =>
      lift_within fun newids _ => lift_within fun src hsrc => ?_
    have hs : ∀ i v s, nth src i = .ok v → v = .str s → s ∈ S := by
      intro i v s hv he
      obtain ⟨x, _, hx⟩ := mapE_mem hsrc v (nth_mem hv)
      exact catObjName_ok hC hx he
    split
    · refine lift_within fun pos _ => lift_within fun old hold => get_within (fun s e => hs _ _ s hold e) fun v => ?_
      refine lift_within fun res1 _ => duplicate_within hC fun extra => ?_
      split
      · exact pushFrom_within hC hk rest _ _
      · exact lift_within fun _ _ => pushFrom_within hC hk rest _ _
    · refine duplicate_within hC fun extra => lift_within fun s0 hs0 => fun blk => ?_
      dsimp only
      split
      · refine get_within (fun s e => hs _ _ s hs0 e) fun v => lift_within fun _ _ => lift_within fun _ _ => lift_within fun _ _ => ?_
        split
        · refine get_within (fun s e => hs _ _ s hs0 e) fun v => lift_within fun _ _ => lift_within fun _ _ => ?_
          exact pushFrom_within hC hk rest _ _
        · trivial
      · exact pushFrom_within hC hk rest _ _

theorem push_within (hC : Closed E S) {t : PyVal} {src : List Str} : (push E t src).Within S := by
  unfold push
  refine lift_within fun _ _ => lift_within fun _ _ => pushFrom_within hC (fun r => lift_within fun _ _ => ?_) _ _ _
  split
  · trivial
  · exact storing_within fun _ => trivial

theorem fromCat_within {key : Str} {v : PyVal} {k : Prog} (hk : k.Within S) : (fromCat key v k).Within S := by
  unfold fromCat
  refine lift_within fun f _ => ?_
  split
  · split
    · split <;> trivial
    · trivial
  · exact hk

theorem catMethod_within {key : Str} {cat : PyVal} {cb : Block} {k : Prog} (hcat : ∀ s, cat = .str s → s ∈ S) (hk : k.Within S)
    (res : PyVal) : (catMethod key cat cb k res).Within S := by
  unfold catMethod
  split
  · refine lift_within fun f _ => ?_
    split
    · exact fromCat_within hk
    · split
      · exact ⟨hcat _ rfl, andThen_within fun v => fromCat_within hk⟩
      · trivial
  · exact fromCat_within hk

theorem fromPulled_within (hC : Closed E S) {key : Str} {cat : PyVal} {cb : Block} {src : List Str} {k : Prog}
    (hcat : ∀ s, cat = .str s → s ∈ S) (hk : k.Within S) (res : PyVal) : (fromPulled E key cat cb src k res).Within S := by
  unfold fromPulled
  split
  · refine lift_within fun n _ => ?_
    split
    · exact attempt_within (push_within hC) fun v => catMethod_within hcat hk v
    · exact catMethod_within hcat hk res
  · exact catMethod_within hcat hk res

theorem populate_within (hC : Closed E S) {key : Str} {cat : PyVal} {k : Prog} (hcat : ∀ s, cat = .str s → s ∈ S) (hk : k.Within S) :
    (populate E key cat k).Within S := by
  unfold populate
  refine lift_within fun _ _ => lift_within fun cb _ => ?_
  split
  · exact attempt_within (construct_within hC) fun v => fromPulled_within hC hcat hk v
  · exact fromPulled_within hC hcat hk _

theorem tryMethods_within (hC : Closed E S) {k : PyVal → Prog} (hk : ∀ v, (k v).Within S) :
    ∀ fs : List PyVal, (tryMethods E fs k).Within S
  | [] => hk _
  | f :: fs => by
    unfold tryMethods
    refine sub_within (hC.methods f) fun r => ?_
    cases r with
    | ok v =>
      show (if v = .none then tryMethods E fs k else k v).Within S
      split
      · exact tryMethods_within hC hk fs
      · exact hk v
    | error e =>
      show (if quiet e then tryMethods E fs k else .fail e).Within S
      split
      · exact tryMethods_within hC hk fs
      · trivial

theorem defaultValue_within {key : Str} {dv di : PyVal} {k : PyVal → Bool → Prog}
    (hdi : truthy di = true → ∀ s, di = .str s → s ∈ S) (hk : ∀ v b, (k v b).Within S) : (defaultValue E key dv di k).Within S := by
  unfold defaultValue
  split
  · exact lift_within fun _ _ => hk _ _
  split
  · rename_i ht
    refine lift_within fun _ _ => get_within (hdi ht) fun at_ => lift_within fun _ _ => ?_
    split
    · refine lift_within fun _ _ => lift_within fun _ _ => ?_
      cases at_ with
      | str s =>
        exact lift_within fun _ _ => lift_within fun _ _ => lift_within fun _ _ => lift_within fun _ _ => lift_within fun _ _ => hk _ _
      | list l =>
        exact lift_within fun _ _ => lift_within fun _ _ => lift_within fun _ _ => lift_within fun _ _ => lift_within fun _ _ =>
          lift_within fun _ _ => hk _ _
      | slist l =>
        exact lift_within fun _ _ => lift_within fun _ _ => lift_within fun _ _ => lift_within fun _ _ => lift_within fun _ _ =>
          lift_within fun _ _ => hk _ _
      | none => trivial
      | num _ => trivial
      | sdict _ => trivial
    · trivial
  · exact hk _ _

theorem save_within {key : Str} {cat : PyVal} {l s d : Bool} {r : PyVal} : (save E key cat l s d r).Within S := by
  unfold save
  split
  · refine lift_within fun sc _ => ?_
    split
    · split
      · exact storing_within fun _ => trivial
      · exact storing_within fun _ => trivial
    · exact storing_within fun _ => trivial
  · trivial

theorem conclude_within {key : Str} {cat : PyVal} {has : List Str} (hhas : ∀ a ∈ has, a ∈ S) {st : Bool} (r : PyVal) (d : Bool) :
    (conclude E key cat has st r d).Within S := by
  unfold conclude
  split
  · trivial
  · unfold adjust
    refine lift_within fun _ _ => lift_within fun cls _ => ?_
    split
    · split
      · split
        · exact get_within (fun s e => by injection e with e; rw [← e]; exact hhas _ List.mem_cons_self) fun v =>
            lift_within fun _ _ => save_within
        · exact save_within
      · exact save_within
    · exact save_within

theorem orDefault_within {key : Str} {cat : PyVal} {has : List Str} (hhas : ∀ a ∈ has, a ∈ S) {dv di : PyVal} {st al : Bool}
    (hdi : truthy di = true → ∀ s, di = .str s → s ∈ S) (r : PyVal) : (orDefault E key cat has dv di st al r).Within S := by
  unfold orDefault
  split
  · exact defaultValue_within hdi fun v b => conclude_within hhas v b
  · exact conclude_within hhas r false

theorem select_mem {α : Type} {f : α → Except PyErr Bool} : ∀ {l r : List α}, select f l = .ok r → ∀ x ∈ r, x ∈ l ∧ f x = .ok true
  | [], r, h, x, hx => by simp only [select, Except.ok.injEq] at h; subst h; cases hx
  | a :: l, r, h, x, hx => by
    simp only [select] at h
    split at h
    · cases h
    · rename_i t ht
      split at h
      · cases h
      · rename_i s hs
        simp only [Except.ok.injEq] at h
        subst h
        cases t with
        | true =>
          rcases List.mem_cons.1 hx with rfl | hx
          · exact ⟨List.mem_cons_self, ht⟩
          · exact ⟨List.mem_cons_of_mem _ (select_mem hs x hx).1, (select_mem hs x hx).2⟩
        | false => exact ⟨List.mem_cons_of_mem _ (select_mem hs x hx).1, (select_mem hs x hx).2⟩

theorem compute_within (hC : Closed E S) {key : Str} {cat : PyVal} {names : List Str} (hn : ∀ a ∈ names, a ∈ S) {dv di : PyVal}
    {st al : Bool} (hdi : truthy di = true → ∀ s, di = .str s → s ∈ S) : (compute E key cat names dv di st al).Within S := by
  unfold compute
  refine fun b => lift_within fun has hhas => lift_within fun fs _ => ?_
  have hh : ∀ a ∈ has, a ∈ S := fun a ha => hn a (select_mem hhas a ha).1
  split
  · exact lift_within fun _ _ => tryMethods_within hC (fun v => orDefault_within hh hdi v) _
  · exact orDefault_within hh hdi _

theorem deriveRest_within (hC : Closed E S) (key : Str) (st al : Bool) : (deriveRest E key st al).Within S := by
  unfold deriveRest
  refine lift_within fun cat hcat => lift_within fun names hnames => fun b => lift_within fun has _ => lift_within fun dv _ =>
    lift_within fun di hdi => ?_
  have hn : ∀ a ∈ names, a ∈ S := fun a ha => hC.keys a (select_mem hnames a ha).1
  have hc : ∀ s, cat = .str s → s ∈ S := fun s hs => by
    obtain ⟨b, h1, h2⟩ := attrI_ok hcat
    exact hC.named key b _ s h1 List.mem_cons_self (by rw [h2, hs])
  have hd : truthy di = true → ∀ s, di = .str s → s ∈ S := by
    intro ht s hs
    unfold CifDic.attrD at hdi
    split at hdi
    · cases hdi
    · rename_i b hb
      unfold CifDic.getD at hdi
      split at hdi
      · exact hC.named key b _ s hb (List.mem_cons_of_mem _ List.mem_cons_self) (by rw [hdi, hs])
      · simp only [Except.ok.injEq] at hdi
        rw [← hdi] at ht
        simp [truthy] at ht
  have hcomp := compute_within hC (key := key) (cat := cat) hn (dv := dv) (di := di) (st := st) (al := al) hd
  show (if has = [] then _ else _ : Prog).Within S
  split
  · exact populate_within hC hc hcomp
  · exact hcomp

theorem deriveBody_within (hC : Closed E S) (key : Str) (st al : Bool) : (deriveBody E key st al).Within S := by
  unfold deriveBody
  refine fun b => lift_within fun l hl => ?_
  split
  · rename_i k r hf
    refine get_within (fun s hs => ?_) fun v => lift_within fun _ _ => trivial
    have : k ∈ l.filter (inBlock b) := by rw [hf]; exact List.mem_cons_self
    rw [hs] at this
    exact hC.alias hl (List.mem_filter.1 this).1
  · refine lift_within fun al' hal => ?_
    split
    · exact deriveRest_within hC key st al
    · rename_i k v
      have hm := (select_mem hal (k, v) List.mem_cons_self).1
      have ha := hC.aliases k v hm
      unfold viaDefinition
      split
      · exact get_within (fun s e => by injection e with e; rw [← e]; exact ha.1) fun v => lift_within fun _ _ => trivial
      · refine lift_within fun o ho => ?_
        split
        · rename_i x r hf
          refine get_within (fun s hs => ?_) fun v => lift_within fun _ _ => trivial
          have : x ∈ o.filter (inBlock b) := by rw [hf]; exact List.mem_cons_self
          rw [hs] at this
          exact ha.2 o s ho (List.mem_filter.1 this).1
        · exact deriveRest_within hC k st al
    · trivial

theorem Prog.Within.mono {S T : List Str} (h : ∀ a ∈ S, a ∈ T) : ∀ p : Prog, p.Within S → p.Within T
  | .ret _, _ => trivial
  | .fail _, _ => trivial
  | .ask _ k, hw => ⟨h _ hw.1, fun r => Within.mono h (k r) (hw.2 r)⟩
  | .derive _ k, hw => ⟨h _ hw.1, fun r => Within.mono h (k r) (hw.2 r)⟩
  | .look k, hw => fun b => Within.mono h (k b) (hw b)
  | .edit _ k, hw => fun r => Within.mono h (k r) (hw r)
  | .sub _ p k, hw => ⟨Within.mono h p hw.1, fun r => Within.mono h (k r) (hw.2 r)⟩

theorem Closed.mono {T : List Str} (hC : Closed E S) (h : ∀ a ∈ S, a ∈ T) : Closed E T :=
  ⟨fun a ha => h a (hC.keys a ha),
   fun a v hm => ⟨h a (hC.aliases a v hm).1, fun l s hl hs => h s ((hC.aliases a v hm).2 l s hl hs)⟩,
   fun k b a s h1 h2 h3 => h s (hC.named k b a s h1 h2 h3),
   fun k b v l s h1 h2 h3 h4 => h s (hC.parts k b v l s h1 h2 h3 h4),
   fun p l s h1 h2 => h s (hC.objects p l s h1 h2),
   fun f => (hC.methods f).mono h⟩

/-! ## Only the chain of calls matters -/

/-- Two ways of answering requests do the same while `called_list` is `c`, which they restore. -/
def Alike (c : List Str) (f g : Str → St → Res) : Prop :=
  ∀ n s, s.called = c → f n s = g n s ∧ ∀ s' r, f n s = some (s', r) → s'.called = c

theorem run_alike {c : List Str} {ask der ask' der' : Str → St → Res} (ha : Alike c ask ask') (hd : Alike c der der') :
    ∀ (p : Prog) (s : St), s.called = c →
      run ask der p s = run ask' der' p s ∧ ∀ s' r, run ask der p s = some (s', r) → s'.called = c
  | .ret v, s, hs => ⟨rfl, fun s' r h => by simp only [run, Option.some.injEq, Prod.mk.injEq] at h; rw [← h.1]; exact hs⟩
  | .fail e, s, hs => ⟨rfl, fun s' r h => by simp only [run, Option.some.injEq, Prod.mk.injEq] at h; rw [← h.1]; exact hs⟩
  | .ask n k, s, hs => by
    obtain ⟨h1, h2⟩ := ha n s hs
    simp only [run, ← h1]
    split
    · exact ⟨rfl, fun _ _ h => by cases h⟩
    · rename_i s1 r1 he
      exact run_alike ha hd (k r1) s1 (h2 s1 r1 he)
  | .derive n k, s, hs => by
    obtain ⟨h1, h2⟩ := hd n s hs
    simp only [run, ← h1]
    split
    · exact ⟨rfl, fun _ _ h => by cases h⟩
    · rename_i s1 r1 he
      exact run_alike ha hd (k r1) s1 (h2 s1 r1 he)
  | .look k, s, hs => by
    simp only [run]
    exact run_alike ha hd (k s.block) s hs
  | .edit f k, s, hs => by
    simp only [run]
    exact run_alike ha hd (k (f s.block).2) _ hs
  | .sub prov p k, s, hs => by
    obtain ⟨h1, h2⟩ := run_alike ha hd p { s with provide := prov || s.provide } hs
    simp only [run, ← h1]
    split
    · exact ⟨rfl, fun _ _ h => by cases h⟩
    · rename_i s1 r1 he
      exact run_alike ha hd (k r1) _ (h2 s1 r1 he)

theorem twice_alike {c : List Str} {f g : Option Bool → St → Res} {final : Except PyErr PyVal → Except PyErr PyVal}
    (h : ∀ a s, s.called = c → f a s = g a s ∧ ∀ s' r, f a s = some (s', r) → s'.called = c) (s : St) (hs : s.called = c) :
    twice f final s = twice g final s ∧ ∀ s' r, twice f final s = some (s', r) → s'.called = c := by
  obtain ⟨h1, h2⟩ := h (some false) s hs
  unfold twice
  rw [← h1]
  split
  · rename_i s1 he
    obtain ⟨g1, g2⟩ := h (some true) s1 (h2 s1 _ he)
    rw [← g1]
    split
    · rename_i s2 r2 he2
      exact ⟨rfl, fun s' r hr => by
        simp only [Option.some.injEq, Prod.mk.injEq] at hr
        rw [← hr.1]
        exact g2 s2 r2 he2⟩
    · exact ⟨rfl, fun _ _ h => by cases h⟩
  · exact ⟨rfl, fun s' r hr => h2 s' r hr⟩

theorem getItem_alike {c : List Str} {E : Engine} {f g : Call} (h : ∀ st a, Alike c (fun n => f n st a) (fun n => g n st a)) :
    Alike c (getItem E f) (getItem E g) := by
  intro n s hs
  have hx : ∀ (t : St) (x : Except PyErr PyVal), t.called = c →
      some (t, x) = some (t, x) ∧ ∀ s' r, some (t, x) = some (s', r) → s'.called = c := fun t x ht =>
    ⟨rfl, fun s' r e => by simp only [Option.some.injEq, Prod.mk.injEq] at e; rw [← e.1]; exact ht⟩
  unfold getItem
  split
  · exact hx _ _ hs
  split
  · exact twice_alike (fun a t ht => h E.cache a n t ht) s hs
  · exact hx _ _ hs
  · split
    · exact hx _ _ hs
    split
    · exact hx _ _ hs
    split
    · split
      · exact hx _ _ hs
      · exact twice_alike (fun a t ht => h true a n t ht) _ hs
    · exact hx _ _ hs

end Verif.Derive
