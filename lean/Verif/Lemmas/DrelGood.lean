import Verif.Lemmas.DrelLit
import Verif.Lemmas.CollectionTree
/-! # The translation of expressions keeps their structure -/
namespace Verif
namespace DrelMeaning
open DrelPy PyText
variable [CaseFold]
set_option linter.unusedSectionVars false

theorem dget_varsOf (W : Dict Str (Str × Nat × Bool)) (k : Str) : dget (varsOf W) k = (dget W k).map (·.1) := by
  induction W with
  | nil => rfl
  | cons p r ih =>
    obtain ⟨a, b⟩ := p
    simp only [varsOf, List.map_cons, dget] at ih ⊢
    split
    · rfl
    · exact ih

/-- One table has all entries of another. -/
def Ext {β : Type} (A B : Dict Str β) : Prop := ∀ k w, dget A k = some w → dget B k = some w

theorem Ext.refl {β : Type} (A : Dict Str β) : Ext A A := fun _ _ h => h

theorem Ext.trans {β : Type} {A B C : Dict Str β} (h : Ext A B) (h' : Ext B C) : Ext A C := fun _ _ h1 => h' _ _ (h _ _ h1)

theorem Ext.dset {β : Type} {A : Dict Str β} {k : Str} {v : β} (h : dget A k = none) : Ext A (dset A k v) := by
  intro k' w hw
  rw [dget_dset]
  split
  · rename_i e; subst e; rw [h] at hw; cases hw
  · exact hw

section
variable (env : Env) (tg : Str) (ids : Dict Str Alias) (packets : Dict Str Str) (rhs : Bool)

/-- The category of a packet just chosen. -/
def chosen : Expr → Option Str
  | .sub p _ => category (viewOf env tg ids packets []) p
  | _ => none

/-- How tightly the text binds in Python. -/
def plvl : Expr → Nat
  | .op .or _ _ => 1
  | .op .and _ _ => 2
  | .not _ => 3
  | .op .bar _ _ => 5
  | .op .amp _ _ => 6
  | .op .pow _ _ => 10
  | .op .lt _ _ | .op .gt _ _ | .op .le _ _ | .op .ge _ _ | .op .ne _ _ | .op .eq _ _ | .op .isIn _ _ | .op .notIn _ _ => 4
  | _ => 11

/-- The text is the expression meant. -/
def GoodAt (e : Expr) (s : Str) (p : Py) : Prop := Good (plvl e) s p ∧ (plvl e = 11 → GoodP s p)

/-- A name. -/
def isWord : Expr → Bool
  | .name _ => true
  | _ => false

/-- What is said of the translation of an expression. -/
structure Out (e : Expr) (st : St) (txt : Str) (st' : St) : Prop where
  inv : Inv ids packets rhs st'
  ext : Ext st.withtable st'.withtable
  sub : (if st'.sub = [] then none else some st'.sub) = chosen env tg ids packets e
  notId : isWord e = false → ident txt = false
  head : isAtom e = true → isWord e = false → txt.head? ≠ some '_'
  good : ∃ p, GoodAt e txt p ∧ ∀ W, Ext st'.withtable W → means (viewOf env tg ids packets W) e = some p

/-- What is said of the translations of several expressions. -/
structure Outs (es : List Expr) (st : St) (ts : List Str) (st' : St) : Prop where
  inv : Inv ids packets rhs st'
  ext : Ext st.withtable st'.withtable
  sub : st'.sub = []
  good : ∃ ps, TextsGood ts ps ∧ ps.length = es.length ∧ ∀ W, Ext st'.withtable W → meanings (viewOf env tg ids packets W) es = some ps
end

variable {env : Env} {tg : Str} {ids : Dict Str Alias} {packets : Dict Str Str} {rhs : Bool}

theorem plvl_pos (e : Expr) : 1 ≤ plvl e := by unfold plvl; split <;> omega

theorem GoodP.at {e : Expr} {s : Str} {p : Py} (h : GoodP s p) (he : plvl e = 11) : GoodAt e s p := ⟨he ▸ h.good, fun _ => h⟩

theorem plvl_level {e : Expr} (h : level e = 9) : plvl e = 11 := by
  unfold level at h
  split at h <;> first | (exfalso; omega) | skip
  rename_i h1 h2 h3 h4 h5 h6 h7 h8 h9 h10 h11 h12 h13
  unfold plvl
  split <;> first | rfl | (exfalso; simp_all)

theorem plain_quote {s : Str} (h : plain s = true) {q : Char} (hq : isQuote q = true) :
    (s.all fun d => d != q && d != '\\' && d != '\n') = true := by
  unfold plain at h
  rw [List.all_eq_true] at h ⊢
  intro d hd
  have := h d hd
  simp only [plainChar, Bool.and_eq_true, bne_iff_ne, ne_eq] at this
  simp only [isQuote, Bool.or_eq_true, beq_iff_eq] at hq
  simp only [Bool.and_eq_true, bne_iff_ne, ne_eq]
  rcases hq with rfl | rfl
  · exact ⟨⟨this.1.1.1, this.1.2⟩, this.2⟩
  · exact ⟨⟨this.1.1.2, this.1.2⟩, this.2⟩

theorem ident_plain {s : Str} (h : ident s = true) : plain s = true := by
  unfold plain
  rw [List.all_eq_true]
  intro d hd
  have := ident_char h hd
  simp only [plainChar, Bool.and_eq_true, bne_iff_ne, ne_eq]
  refine ⟨⟨⟨?_, ?_⟩, ?_⟩, ?_⟩ <;> (rintro rfl; revert this; decide)

theorem pyName_plain {s : Str} (h : s.all nameChar = true) : plain s = true := by
  unfold plain
  rw [List.all_eq_true] at h ⊢
  intro d hd
  have := h d hd
  simp only [plainChar, Bool.and_eq_true, bne_iff_ne, ne_eq]
  refine ⟨⟨⟨?_, ?_⟩, ?_⟩, ?_⟩ <;> (rintro rfl; revert this; decide)

theorem strGood {s : Str} (h : plain s = true) {q : Char} (hq : isQuote q = true) : GoodP (quoted q s) (.str s) :=
  GoodP.str hq (plain_quote h hq)

/-! ## Fields kept -/

theorem depend_fields (st : St) (n : Str) : (st.depend n).ids = st.ids ∧ (st.depend n).packets = st.packets ∧
    (st.depend n).rhs = st.rhs ∧ (st.depend n).withtable = st.withtable ∧ (st.depend n).sub = st.sub := by
  unfold St.depend
  split <;> exact ⟨rfl, rfl, rfl, rfl, rfl⟩

theorem dependAll_fields : ∀ (ns : List Str) (st : St), (st.dependAll ns).ids = st.ids ∧ (st.dependAll ns).packets = st.packets ∧
    (st.dependAll ns).rhs = st.rhs ∧ (st.dependAll ns).withtable = st.withtable ∧ (st.dependAll ns).sub = st.sub
  | [], _ => ⟨rfl, rfl, rfl, rfl, rfl⟩
  | n :: r, st => by
    obtain ⟨a1, a2, a3, a4, a5⟩ := dependAll_fields r (st.depend n)
    obtain ⟨b1, b2, b3, b4, b5⟩ := depend_fields st n
    exact ⟨a1.trans b1, a2.trans b2, a3.trans b3, a4.trans b4, a5.trans b5⟩

theorem Inv.of_fields {st st' : St} (h : Inv ids packets rhs st) (h1 : st'.ids = st.ids) (h2 : st'.packets = st.packets)
    (h3 : st'.rhs = st.rhs) (h4 : st'.withtable = st.withtable) : Inv ids packets rhs st' :=
  ⟨h1.trans h.ids, h2.trans h.packets, fun hr => h3.trans (h.rhs hr), by rw [h4]; exact h.vars, by rw [h4]; exact h.once⟩

theorem Inv.depend {st : St} (h : Inv ids packets rhs st) (n : Str) : Inv ids packets rhs (st.depend n) :=
  h.of_fields (depend_fields st n).1 (depend_fields st n).2.1 (depend_fields st n).2.2.1 (depend_fields st n).2.2.2.1

/-! ## Names in the dictionary -/

theorem nameOf_item {c a n : Str} (h : nameOf env c a = .ok n) (W : Dict Str (Str × Nat × Bool)) :
    (viewOf env tg ids packets W).item c a = some n ∧ ∃ k ns, dget env.names k = some ns ∧ n ∈ ns := by
  unfold nameOf at h
  cases c with
  | nil => cases h
  | cons d r =>
    dsimp only at h
    have e : (if d = '_' then r else d :: r) = (if (d :: r).head? = some '_' then (d :: r).tail else d :: r) := by
      by_cases hd : d = '_'
      · rw [if_pos hd, List.head?_cons, if_pos (by rw [hd])]; rfl
      · rw [if_neg hd, List.head?_cons, if_neg (by simpa using hd)]
    rw [e] at h
    cases hg : dget env.names (lower (if (d :: r).head? = some '_' then (d :: r).tail else d :: r), lower a) with
    | none => rw [hg] at h; cases h
    | some ns =>
      rw [hg] at h
      cases ns with
      | nil => cases h
      | cons m ns =>
        dsimp only at h
        cases h
        refine ⟨?_, _, _, hg, by simp⟩
        show (if (d :: r) = [] then none else (dget env.names _).bind List.head?) = _
        rw [if_neg (by simp), hg]; rfl

theorem storedGood {n : Str} (h : plain n = true) {q : Char} (hq : isQuote q = true) : GoodP (dataAccess (quoted q n)) (stored n) := by
  have := (GoodP.name (s := "ciffile".toList) (by decide)).index (.one (strGood h hq).good (by omega)) (by simp)
  unfold dataAccess
  rw [show "ciffile[".toList = "ciffile".toList ++ "[".toList from rfl]
  exact this

theorem memberGood {p n : Str} {e : Py} {lvl : Nat} (hp : Good lvl p e) (h1 : 1 ≤ lvl) (h : plain n = true) :
    GoodP (getattrText p n) (member e n) := by
  have := (GoodP.name (s := "getattr".toList) (by decide)).call (.two hp h1 (strGood h (q := '\'') (by decide)).good (by omega))
  unfold getattrText
  rw [show "getattr(".toList = "getattr".toList ++ "(".toList from rfl, show ",".toList = [','] from rfl]
  simp only [commas, List.append_assoc, List.cons_append, List.nil_append] at this ⊢
  exact this

theorem keyedGood {k c : Str} {e : Py} {lvl : Nat} (hp : Good lvl k e) (h1 : 1 ≤ lvl) (h : plain c = true) :
    GoodP (semanticPacket k (quoted '\'' c)) (keyed e c) := by
  have := (GoodP.dotted (s := "ciffile.GetKeyedSemanticPacket".toList) (a := "ciffile".toList) (r := ["GetKeyedSemanticPacket".toList])
    (by decide +kernel)).call (.two hp h1 (strGood h (q := '\'') (by decide)).good (by omega))
  unfold semanticPacket
  rw [show "ciffile.GetKeyedSemanticPacket(".toList = "ciffile.GetKeyedSemanticPacket".toList ++ "(".toList from rfl,
    show ",".toList = [','] from rfl]
  simp only [commas, List.append_assoc, List.cons_append, List.nil_append] at this ⊢
  exact this

theorem indexGood {p i : Str} {e k : Py} {lvl : Nat} (hp : GoodP p e) (hi : Good lvl i k) (h1 : 1 ≤ lvl) :
    GoodP (p ++ "[".toList ++ i ++ "]".toList) (.index e k) := hp.index (.one hi h1) (by simp)

theorem not_ident_mem {s a b c : Str} {x : Char} (hs : s = a ++ b ++ c) (hx : x ∈ b) (h : nameChar x = false) : ident s = false :=
  not_ident (c := x) (by rw [hs]; simp [hx]) h

theorem toDigits_digit (n : Nat) : (Nat.toDigits 10 n).all Char.isDigit = true :=
  List.all_eq_true.2 fun _ hc => Nat.isDigit_of_mem_toDigits (by decide) (by decide) hc

theorem withVar_good (n : Nat) : pyName (withVar n) = true ∧ ident (withVar n) = false := by
  have e : withVar n = '_' :: '_' :: 'w' :: Nat.toDigits 10 n := rfl
  rw [e]
  constructor
  · have h1 : ((Nat.toDigits 10 n).all nameChar) = true := by
      have := toDigits_digit n
      rw [List.all_eq_true] at this ⊢
      intro d hd
      simp only [nameChar, Char.isAlphanum, this d hd, Bool.or_true, Bool.true_or]
    have h2 : ('_' :: '_' :: 'w' :: Nat.toDigits 10 n) ∉ keywords := by
      intro h
      have : ∀ k ∈ keywords, k.head? ≠ some '_' := by decide
      exact this _ h rfl
    simp only [pyName, List.all_cons, h1, Bool.and_eq_true, Bool.not_eq_true', List.contains_eq_mem, decide_eq_false_iff_not]
    exact ⟨⟨by decide, by decide⟩, h2⟩
  · simp only [ident, List.take_succ_cons, List.take_zero]
    have : (['_', '_'] != "__".toList) = false := by decide
    rw [this, Bool.and_false]

theorem Inv.var {st : St} (hI : Inv ids packets rhs st) {k : Str} {w : Str × Nat × Bool} (h : dget st.withtable k = some w) :
    pyName w.1 = true ∧ ident w.1 = false := by
  obtain ⟨i, hi⟩ := List.getElem?_of_mem (dget_mem h)
  rw [hI.vars i k w hi]
  exact withVar_good i

/-! ## Attributes -/

/-- What is said of the translation of an attribute that is a data item. -/
structure ItemOut (env : Env) (tg : Str) (ids : Dict Str Alias) (packets : Dict Str Str) (rhs : Bool) (st : St) (txt : Str) (st' : St)
    (m : View → Option Py) : Prop where
  inv : Inv ids packets rhs st'
  ext : Ext st.withtable st'.withtable
  sub : st'.sub = []
  notId : ident txt = false
  good : ∃ p, GoodP txt p ∧ ∀ W, Ext st'.withtable W → m (viewOf env tg ids packets W) = some p

/-- An object of a loop packet that is not the item being derived. -/
theorem own_ne (hE : EnvOk env tg) {al : Alias} {x a n : Str} (hx : dget ids x = some al) (h : ownOf env ids x a = false)
    (hl : al.loop = true) (hn : nameOf env (lower al.cat) (lower a) = .ok n) : lower n ≠ lower tg := by
  intro e
  unfold ownOf at h
  have hi : (View.of env.names [] [] [] [] []).item (lower al.cat) (lower a) = some n := (nameOf_item hn (tg := tg) (ids := ids) (packets := []) []).1
  rw [hx, Option.any_some, hl, hi, Option.any_some, hE.target, Option.any_some, decide_eq_true e] at h
  cases h

theorem special_good (hE : EnvOk env tg) {al : Alias} (hal : al.loop = true → pyName al.index = true) {st st' : St} {a txt : Str}
    (hown : al.loop = true → ∀ n, nameOf env (lower al.cat) (lower a) = .ok n → lower n ≠ lower tg)
    (hI : Inv ids packets rhs st) (hs : st.sub = []) (h : specialAttr env al a st = .ok (txt, st')) :
    ItemOut env tg ids packets rhs st txt st' fun v => current v al a := by
  unfold specialAttr at h
  cases hn : nameOf env (lower al.cat) (lower a) with
  | error x => rw [hn] at h; cases h
  | ok n =>
    rw [hn, hE.target] at h
    dsimp only at h
    obtain ⟨k, ns, hk, hmem⟩ := (nameOf_item hn (tg := tg) (ids := ids) (packets := packets) []).2
    have hpl := (hE.names k ns hk n hmem).2
    have hcur : ∀ W, current (viewOf env tg ids packets W) al a = 
        (if al.loop then some (.index (stored (lower n)) (.name al.index))
          else orTarget (viewOf env tg ids packets W) n
            (if al.index = [] then some (stored (lower n)) else ((viewOf env tg ids packets W).var (lower n)).map .name)) := by
      intro W
      unfold current
      rw [(nameOf_item hn W).1]; rfl
    by_cases ht : lower n = lower tg
    · rw [if_pos ht] at h
      cases h
      refine ⟨hI.of_fields rfl rfl rfl rfl, .refl _, hs, by decide, _, GoodP.name (by decide), fun W _ => ?_⟩
      rw [hcur, if_neg fun hl => hown hl n hn ht, orTarget]
      exact if_pos ht
    · rw [if_neg ht] at h
      have hne : ∀ W x, orTarget (viewOf env tg ids packets W) n x = x := fun W x => by
        unfold orTarget; exact if_neg ht
      have hst := storedGood hpl (q := '"') (by decide)
      have hid : ∀ r, ident (dataAccess (quoted '"' (lower n)) ++ r) = false := fun r =>
        not_ident (c := '[') (List.mem_append_left _ (List.mem_append_left _ (List.mem_append_left _ (by decide)))) (by decide)
      by_cases hl : al.loop = true ∨ al.index = []
      · rw [if_pos hl] at h
        cases h
        obtain ⟨-, -, -, f4, f5⟩ := depend_fields st (lower n)
        refine ⟨hI.depend _, by rw [f4]; exact .refl _, f5.trans hs, hid _, ?_⟩
        by_cases hlo : al.loop = true
        · have hp := hal hlo
          have hne' : al.index ≠ [] := by intro e; rw [e] at hp; cases hp
          rw [if_neg hne']
          refine ⟨_, ?_, fun W _ => by rw [hcur, if_pos hlo]⟩
          have := indexGood hst (GoodP.name hp).good (by omega)
          simp only [List.append_assoc] at this ⊢
          exact this
        · have he : al.index = [] := hl.resolve_left hlo
          rw [if_pos he, List.append_nil]
          exact ⟨_, hst, fun W _ => by rw [hcur, if_neg hlo, hne, if_pos he]⟩
      · rw [if_neg hl] at h
        have hlo : ¬ al.loop = true := fun h => hl (.inl h)
        have hix : ¬ al.index = [] := fun h => hl (.inr h)
        cases hw : dget st.withtable (lower n) with
        | some w =>
          rw [hw] at h
          cases h
          obtain ⟨-, -, -, f4, f5⟩ := depend_fields st (lower n)
          obtain ⟨g1, g2⟩ := hI.var hw
          refine ⟨hI.depend _, by rw [f4]; exact .refl _, f5.trans hs, g2, _, GoodP.name g1, fun W hW => ?_⟩
          rw [hcur, if_neg hlo, hne, if_neg hix]
          show (dget (varsOf W) _).map _ = _
          rw [f4] at hW
          rw [dget_varsOf, hW _ _ hw]; rfl
        | none =>
          rw [hw] at h
          cases h
          obtain ⟨g1, g2⟩ := withVar_good st.withtable.length
          generalize hst2 : ({ st with withtable := dset st.withtable (lower n) (withVar st.withtable.length, st.withtable.length, st.inif) } : St) = st2
          have e1 : st2.withtable = dset st.withtable (lower n) (withVar st.withtable.length, st.withtable.length, st.inif) := by
            rw [← hst2]
          have hI2 : Inv ids packets rhs st2 := by
            refine ⟨by rw [← hst2]; exact hI.ids, by rw [← hst2]; exact hI.packets, fun hr => by rw [← hst2]; exact hI.rhs hr, ?_, ?_⟩
            · intro i k w hkw
              rw [e1, dset_of_not_mem _ _ _ (dget_eq_none.1 hw), List.getElem?_append] at hkw
              split at hkw
              · exact hI.vars _ _ _ hkw
              · cases hi : i - st.withtable.length with
                | zero =>
                  rw [hi] at hkw
                  cases hkw
                  rw [show i = st.withtable.length by omega]
                  rfl
                | succ j => rw [hi] at hkw; cases hkw
            · rw [e1, dset_of_not_mem _ _ _ (dget_eq_none.1 hw)]
              show (List.map Prod.fst _).Nodup
              rw [List.map_append, List.nodup_append]
              refine ⟨hI.once, by simp, ?_⟩
              rintro x hx y hy rfl
              simp only [List.map_cons, List.map_nil, List.mem_singleton] at hy
              subst hy
              exact dget_eq_none.1 hw hx
          obtain ⟨-, -, -, f4, f5⟩ := depend_fields st2 (lower n)
          have hs2 : st2.sub = [] := by rw [← hst2]; exact hs
          refine ⟨hI2.depend _, by rw [f4, e1]; exact .dset hw, f5.trans hs2, g2, _, GoodP.name g1, fun W hW => ?_⟩
          rw [hcur, if_neg hlo, hne, if_neg hix]
          show (dget (varsOf W) _).map _ = _
          rw [f4, e1] at hW
          rw [dget_varsOf, hW _ _ (dget_dset_self _ _ _)]; rfl

theorem tag_good (hE : EnvOk env tg) {st st' : St} {t a txt : Str}
    (hI : Inv ids packets rhs st) (hs : st.sub = []) (h : tagAttr env t a st = .ok (txt, st')) :
    ItemOut env tg ids packets rhs st txt st' fun v => (v.item t a).bind fun n => orTarget v n (some (stored (lower n))) := by
  unfold tagAttr at h
  cases hn : nameOf env t a with
  | error x => rw [hn] at h; cases h
  | ok n =>
    rw [hn, hE.target] at h
    dsimp only at h
    obtain ⟨k, ns, hk, hmem⟩ := (nameOf_item hn (tg := tg) (ids := ids) (packets := packets) []).2
    have hpl := (hE.names k ns hk n hmem).2
    by_cases ht : lower tg = lower n
    · rw [if_pos ht] at h
      cases h
      refine ⟨hI.of_fields rfl rfl rfl rfl, .refl _, hs, by decide, _, GoodP.name (by decide), fun W _ => ?_⟩
      rw [(nameOf_item hn W).1]
      exact if_pos ht.symm
    · rw [if_neg ht] at h
      cases h
      obtain ⟨-, -, -, f4, f5⟩ := depend_fields st (lower n)
      refine ⟨hI.depend _, by rw [f4]; exact .refl _, f5.trans hs, ?_, _, storedGood hpl (by decide), fun W _ => ?_⟩
      · exact not_ident (c := '[') (List.mem_append_left _ (List.mem_append_left _ (by decide))) (by decide)
      · rw [(nameOf_item hn W).1]
        exact if_neg fun e => ht e.symm

theorem getattr_not_ident (p n : Str) : ident (getattrText p n) = false :=
  not_ident (c := '(') (List.mem_append_left _ (List.mem_append_left _ (List.mem_append_left _ (List.mem_append_left _ (by decide)))))
    (by decide)

/-- The attribute of something that is not a category. `cat` is the category of the packet, if it is one. -/
theorem member_good (hE : EnvOk env tg) {st st' : St} {t a txt : Str} {e : Py} {lvl : Nat}
    (hI : Inv ids packets rhs st) (hg : Good lvl t e) (h1 : 1 ≤ lvl) (ha : plain a = true) {cat : Option Str}
    (hcat : cat = (dget packets t).or (if st.sub = [] then none else some st.sub))
    (h : plainAttr env t a st = .ok (txt, st')) :
    Inv ids packets rhs st' ∧ st'.withtable = st.withtable ∧ st'.sub = [] ∧ ident txt = false ∧
      ∃ p, GoodP txt p ∧ ∀ W, (match cat with
        | some c => ((viewOf env tg ids packets W).item c a).map (member e)
        | none => some (member e a)) = some p := by
  unfold plainAttr at h
  rw [hI.packets] at h
  have named : ∀ c n, nameOf env c a = .ok n → plain n = true := by
    intro c n hn
    obtain ⟨k, ns, hk, hmem⟩ := (nameOf_item hn (tg := tg) (ids := ids) (packets := packets) []).2
    exact (hE.names k ns hk n hmem).1
  have fields : ∀ n, Inv ids packets rhs { st.depend n with sub := [] } ∧ ({ st.depend n with sub := [] } : St).withtable = st.withtable := by
    intro n
    obtain ⟨f1, f2, f3, f4, f5⟩ := depend_fields st n
    exact ⟨hI.of_fields f1 f2 f3 f4, f4⟩
  cases hp : dget packets t with
  | some c =>
    rw [hp] at h hcat
    dsimp only at h
    rw [Option.some_or] at hcat
    subst hcat
    cases hn : nameOf env c a with
    | error x => rw [hn] at h; cases h
    | ok n =>
      rw [hn] at h
      cases h
      refine ⟨(fields n).1, (fields n).2, rfl, getattr_not_ident _ _, _, memberGood hg h1 (named c n hn), fun W => ?_⟩
      dsimp only
      rw [(nameOf_item hn W).1]; rfl
  | none =>
    rw [hp] at h hcat
    dsimp only at h
    rw [Option.none_or] at hcat
    by_cases hs : st.sub = []
    · rw [if_neg (by simpa using hs)] at h
      rw [if_pos hs] at hcat
      subst hcat
      cases h
      exact ⟨hI.of_fields rfl hI.packets.symm rfl rfl, rfl, rfl, getattr_not_ident _ _, _, memberGood hg h1 ha, fun W => rfl⟩
    · rw [if_pos hs] at h
      rw [if_neg hs] at hcat
      subst hcat
      cases hn : nameOf env st.sub a with
      | error x => rw [hn] at h; cases h
      | ok n =>
        rw [hn] at h
        cases h
        refine ⟨(fields n).1, (fields n).2, rfl, getattr_not_ident _ _, _, memberGood hg h1 (named _ n hn), fun W => ?_⟩
        dsimp only
        rw [(nameOf_item hn W).1]; rfl

/-! ## Operators -/

theorem level_le (e : Expr) : level e ≤ 9 := by unfold level; split <;> omega

theorem plvl_level_cases (e : Expr) : (level e = 9 ∨ level e = 7 ∨ level e = 5) ∧ plvl e = 11 ∨ level e = 1 ∧ plvl e = 1 ∨ level e = 2 ∧ plvl e = 2 ∨
    level e = 3 ∧ plvl e = 3 ∨ level e = 4 ∧ plvl e = 4 ∨ level e = 8 ∧ plvl e = 10 ∨
    level e = 6 ∧ (plvl e = 11 ∨ plvl e = 6 ∨ plvl e = 5 ∧ isBar e = true) := by
  cases e with
  | op o a b => cases o <;> simp [level, plvl, isBar]
  | _ => simp [level, plvl]

theorem plvl_ge (e : Expr) : (level e ≤ 5 → level e ≤ plvl e) ∧ (5 ≤ level e → 5 ≤ plvl e) := by
  have := plvl_level_cases e; omega

theorem plvl_four (e : Expr) : plvl e = 4 → level e = 4 := by
  have := plvl_level_cases e; omega

theorem plvl_seven (e : Expr) (h : 7 ≤ level e) : 10 ≤ plvl e := by
  have := plvl_level_cases e; omega

theorem plvl_six (e : Expr) (h : 6 ≤ level e) (hb : isBar e = false) : 6 ≤ plvl e := by
  rcases plvl_level_cases e with h | h | h | h | h | h | ⟨_, h | h | h⟩
  all_goals first | omega | (rw [h.2] at hb; cases hb)

theorem mathop_good {o : Op} {a b : Expr} {ta tb : Str} {pa pb : Py} (h1 : (operands o).1 ≤ level a) (h2 : (operands o).2 ≤ level b)
    (h3 : ¬(o = .amp ∧ isBar a = true)) (ha : GoodAt a ta pa) (hb : GoodAt b tb pb) :
    GoodAt (.op o a b) (mathop o ta tb) (operation o pa pb) := by
  have hla := plvl_ge a
  have hlb := plvl_ge b
  have h4a := plvl_four a
  have h4b := plvl_four b
  have inf : ∀ {p : Nat} {t : Str} {w : Str} {ot : List Tok}, p ≤ plvl a → p < plvl b → p ≠ 10 → (plvl a = 4 → p < 4) → (plvl b = 4 → p < 4) →
      p < 9 → Lexes t ot → SafeStart t → (HardEnd t ∨ ∃ c, t.getLast? = some c ∧ (c = '<' ∨ c = '>' ∨ c = '=' ∨ c = '*')) →
      (∀ r, infix_ (ot ++ r) = some (w, p, r)) → (∀ r, noTrailer (ot ++ r)) → Good p (ta ++ t ++ tb) (.bin w pa pb) := by
    intro p t w ot e1 e2 e3 e4 e5 e6 e7 e8 e9 e10 e11
    refine Good.bin ha.1 hb.1 e1 e2 e3 e4 (.inr e6) ?_ (.inr e6) e7 e8 e9 e10 e11
    by_cases h : plvl b = 4
    · exact .inr (e5 h)
    · exact .inl h
  have fn : ∀ {f m g : Str} {r : List Str}, f = m ++ "(".toList → isDotted m g r = true →
      GoodP (f ++ ta ++ ",".toList ++ tb ++ ")".toList) (apply g r [pa, pb]) := by
    intro f m g r hf hd
    have := (GoodP.dotted hd).call (.two ha.1 (plvl_pos a) hb.1 (plvl_pos b))
    rw [hf, show ",".toList = [','] from rfl]
    simp only [commas, List.append_assoc, List.cons_append, List.nil_append] at this ⊢
    exact this
  cases o
  case or =>
    have e : (1 : Nat) ≤ level a ∧ 2 ≤ level b := ⟨h1, h2⟩
    refine ⟨inf (p := 1) (ot := [.word "or".toList]) (plvl_pos a) (by omega) (by omega) (by omega) (by omega) (by omega) ⟨4, by decide⟩
      ⟨' ', by decide, by decide⟩ (.inl ⟨' ', by decide, by decide⟩) (fun _ => rfl) (fun _ => trivial), fun h => by cases h⟩
  case and =>
    have e : (2 : Nat) ≤ level a ∧ 3 ≤ level b := ⟨h1, h2⟩
    refine ⟨inf (p := 2) (ot := [.word "and".toList]) (by omega) (by omega) (by omega) (by omega) (by omega) (by omega) ⟨5, by decide⟩
      ⟨' ', by decide, by decide⟩ (.inl ⟨' ', by decide, by decide⟩) (fun _ => rfl) (fun _ => trivial), fun h => by cases h⟩
  case isIn =>
    have e : (5 : Nat) ≤ level a ∧ 5 ≤ level b := ⟨h1, h2⟩
    refine ⟨inf (p := 4) (ot := [.word "in".toList]) (by omega) (by omega) (by omega) (by omega) (by omega) (by omega) ⟨4, by decide⟩
      ⟨' ', by decide, by decide⟩ (.inl ⟨' ', by decide, by decide⟩) (fun _ => rfl) (fun _ => trivial), fun h => by cases h⟩
  case notIn =>
    have e : (5 : Nat) ≤ level a ∧ 5 ≤ level b := ⟨h1, h2⟩
    refine ⟨inf (p := 4) (ot := [.word "not".toList, .word "in".toList]) (by omega) (by omega) (by omega) (by omega) (by omega) (by omega)
      ⟨6, by decide⟩ ⟨' ', by decide, by decide⟩ (.inl ⟨' ', by decide, by decide⟩) (fun _ => rfl) (fun _ => trivial), fun h => by cases h⟩
  case lt =>
    have e : (5 : Nat) ≤ level a ∧ 5 ≤ level b := ⟨h1, h2⟩
    refine ⟨inf (p := 4) (ot := [.op "<".toList]) (by omega) (by omega) (by omega) (by omega) (by omega) (by omega)
      ⟨6, by decide⟩ ⟨'<', by decide, by decide⟩ (.inr ⟨'<', by decide, by simp⟩) (fun _ => rfl) (fun _ => ⟨by decide, by decide, by decide⟩), fun h => by cases h⟩
  case gt =>
    have e : (5 : Nat) ≤ level a ∧ 5 ≤ level b := ⟨h1, h2⟩
    refine ⟨inf (p := 4) (ot := [.op ">".toList]) (by omega) (by omega) (by omega) (by omega) (by omega) (by omega)
      ⟨6, by decide⟩ ⟨'>', by decide, by decide⟩ (.inr ⟨'>', by decide, by simp⟩) (fun _ => rfl) (fun _ => ⟨by decide, by decide, by decide⟩), fun h => by cases h⟩
  case le =>
    have e : (5 : Nat) ≤ level a ∧ 5 ≤ level b := ⟨h1, h2⟩
    refine ⟨inf (p := 4) (ot := [.op "<=".toList]) (by omega) (by omega) (by omega) (by omega) (by omega) (by omega)
      ⟨6, by decide⟩ ⟨'<', by decide, by decide⟩ (.inr ⟨'=', by decide, by simp⟩) (fun _ => rfl) (fun _ => ⟨by decide, by decide, by decide⟩), fun h => by cases h⟩
  case ge =>
    have e : (5 : Nat) ≤ level a ∧ 5 ≤ level b := ⟨h1, h2⟩
    refine ⟨inf (p := 4) (ot := [.op ">=".toList]) (by omega) (by omega) (by omega) (by omega) (by omega) (by omega)
      ⟨6, by decide⟩ ⟨'>', by decide, by decide⟩ (.inr ⟨'=', by decide, by simp⟩) (fun _ => rfl) (fun _ => ⟨by decide, by decide, by decide⟩), fun h => by cases h⟩
  case ne =>
    have e : (5 : Nat) ≤ level a ∧ 5 ≤ level b := ⟨h1, h2⟩
    refine ⟨inf (p := 4) (ot := [.op "!=".toList]) (by omega) (by omega) (by omega) (by omega) (by omega) (by omega)
      ⟨6, by decide⟩ ⟨'!', by decide, by decide⟩ (.inr ⟨'=', by decide, by simp⟩) (fun _ => rfl) (fun _ => ⟨by decide, by decide, by decide⟩), fun h => by cases h⟩
  case eq =>
    have e : (5 : Nat) ≤ level a ∧ 5 ≤ level b := ⟨h1, h2⟩
    refine ⟨inf (p := 4) (ot := [.op "==".toList]) (by omega) (by omega) (by omega) (by omega) (by omega) (by omega)
      ⟨6, by decide⟩ ⟨'=', by decide, by decide⟩ (.inr ⟨'=', by decide, by simp⟩) (fun _ => rfl) (fun _ => ⟨by decide, by decide, by decide⟩), fun h => by cases h⟩
  case bar =>
    have e : (6 : Nat) ≤ level a ∧ 7 ≤ level b := ⟨h1, h2⟩
    have e7 := plvl_seven b e.2
    refine ⟨inf (p := 5) (ot := [.op "|".toList]) (by omega) (by omega) (by omega) (by omega) (by omega) (by omega)
      ⟨6, by decide⟩ ⟨'|', by decide, by decide⟩ (.inl ⟨'|', by decide, by decide⟩) (fun _ => rfl) (fun _ => ⟨by decide, by decide, by decide⟩), fun h => by cases h⟩
  case amp =>
    have e : (6 : Nat) ≤ level a ∧ 7 ≤ level b := ⟨h1, h2⟩
    have e7 := plvl_seven b e.2
    have e6 : 6 ≤ plvl a := plvl_six a e.1 (by simpa using h3)
    refine ⟨inf (p := 6) (ot := [.op "&".toList]) (by omega) (by omega) (by omega) (by omega) (by omega) (by omega)
      ⟨6, by decide⟩ ⟨'&', by decide, by decide⟩ (.inl ⟨'&', by decide, by decide⟩) (fun _ => rfl) (fun _ => ⟨by decide, by decide, by decide⟩), fun h => by cases h⟩
  case pow =>
    have e : (9 : Nat) ≤ level a ∧ 7 ≤ level b := ⟨h1, h2⟩
    have e7 := plvl_seven b e.2
    have e9 : plvl a = 11 := plvl_level (Nat.le_antisymm (level_le a) e.1)
    exact ⟨Good.pow (e9 ▸ ha.1) hb.1 e7, fun h => by cases h⟩
  case add => exact GoodP.at (fn (m := "drel_runtime.drel_add".toList) rfl (by decide +kernel)) rfl
  case sub => exact GoodP.at (fn (m := "numpy.subtract".toList) rfl (by decide +kernel)) rfl
  case mul => exact GoodP.at (fn (m := "drel_runtime.drel_dot".toList) rfl (by decide +kernel)) rfl
  case div => exact GoodP.at (fn (m := "numpy.true_divide".toList) rfl (by decide +kernel)) rfl
  case cross => exact GoodP.at (fn (m := "numpy.cross".toList) rfl (by decide +kernel)) rfl

theorem mathop_not_ident (o : Op) (a b : Str) : ident (mathop o a b) = false := by
  have key : ∀ (t : Str) (x : Char), x ∈ t → nameChar x = false → ident (a ++ t ++ b) = false := fun t x hx h =>
    not_ident (c := x) (List.mem_append_left _ (List.mem_append_right _ hx)) h
  have key2 : ∀ (t : Str), '(' ∈ t → ident (t ++ a ++ ",".toList ++ b ++ ")".toList) = false := fun t hx =>
    not_ident (c := '(') (List.mem_append_left _ (List.mem_append_left _ (List.mem_append_left _ (List.mem_append_left _ hx)))) (by decide)
  cases o
  case or => exact key _ ' ' (by decide) (by decide)
  case and => exact key _ ' ' (by decide) (by decide)
  case lt => exact key _ '<' (by decide) (by decide)
  case gt => exact key _ '>' (by decide) (by decide)
  case le => exact key _ '<' (by decide) (by decide)
  case ge => exact key _ '>' (by decide) (by decide)
  case ne => exact key _ '!' (by decide) (by decide)
  case eq => exact key _ '=' (by decide) (by decide)
  case isIn => exact key _ ' ' (by decide) (by decide)
  case notIn => exact key _ ' ' (by decide) (by decide)
  case amp => exact key _ '&' (by decide) (by decide)
  case bar => exact key _ '|' (by decide) (by decide)
  case pow => exact key _ '*' (by decide) (by decide)
  all_goals exact key2 _ (by decide)

theorem nameText_good {s : Str} (h : varName s = true) (W : Dict Str (Str × Nat × Bool)) : ∃ p, GoodP (nameText s) p ∧
    means (viewOf env tg ids packets W) (.name s) = some p := by
  rw [means]
  unfold nameText
  by_cases h2 : lower s = "twopi".toList
  · rw [if_pos h2, if_pos h2]
    refine ⟨_, ?_, rfl⟩
    have hn := (GoodP.num (s := "2.0".toList) ⟨1, by decide⟩ ⟨'2', by decide, by decide⟩ ⟨'0', by decide, by decide⟩).good
    have hp := (GoodP.dotted (s := "math.pi".toList) (a := "math".toList) (r := ["pi".toList]) (by decide +kernel)).good
    have hb := Good.bin (p := 8) (t := " * ".toList) (ot := [.op "*".toList]) (o := "*".toList) hn hp (by omega) (by omega) (by omega)
      (by omega) (.inl (by omega)) (.inl (by omega)) (.inl (by omega)) ⟨3, by decide⟩ ⟨' ', by decide, by decide⟩
      (.inl ⟨' ', by decide, by decide⟩) (fun _ => rfl) (fun _ => ⟨by decide, by decide, by decide⟩)
    exact GoodP.paren (.one hb (by omega)) rfl (.inl rfl)
  · rw [if_neg h2, if_neg h2]
    by_cases h1 : lower s = "pi".toList
    · rw [if_pos h1, if_pos h1]
      exact ⟨_, GoodP.dotted (s := "math.pi".toList) (a := "math".toList) (r := ["pi".toList]) (by decide +kernel), rfl⟩
    · rw [if_neg h1, if_neg h1]
      unfold varName at h
      rw [Bool.and_eq_true] at h
      exact ⟨_, GoodP.name h.1, rfl⟩

theorem sliceText_good {ts : List Str} {ps : List Py} {t u : Str} {e : Py} (hg : GoodP t e) (h : TextsGood ts ps) (h1 : 1 ≤ ts.length)
    (h3 : ts.length ≤ 3) (hu : sliceText ts = .ok u) :
    ∃ i, slicing ps = some i ∧ GoodP (t ++ "[".toList ++ u ++ "]".toList) (.index e i) := by
  cases h with
  | nil => simp at h1
  | @cons l1 s1 e1 ss1 es1 g1 k1 h =>
    cases h with
    | nil =>
      rw [sliceText] at hu; cases hu
      obtain ⟨tk, a1, a2, a3⟩ := lex_from g1 k1
      exact ⟨_, rfl, hg.slice a1 a2 a3⟩
    | @cons l2 s2 e2 ss2 es2 g2 k2 h =>
      cases h with
      | nil =>
        rw [sliceText] at hu; cases hu
        obtain ⟨tk, a1, a2, a3⟩ := lex_fromTo g1 k1 g2 k2
        exact ⟨_, rfl, hg.slice a1 a2 a3⟩
      | @cons l3 s3 e3 ss3 es3 g3 k3 h =>
        cases h with
        | nil =>
          rw [sliceText] at hu; cases hu
          obtain ⟨tk, a1, a2, a3⟩ := lex_stepped g1 k1 g2 k2 g3 k3
          exact ⟨_, rfl, hg.slice a1 a2 a3⟩
        | cons => simp at h3

theorem listText_good {ts : List Str} {ps : List Py} (h : TextsGood ts ps) :
    GoodP ("StarList([".toList ++ commas ts ++ "])".toList) (apply "StarList".toList [] [.list ps]) := by
  have := (GoodP.name (s := "StarList".toList) (by decide)).call (.one (GoodP.list h).good (by omega))
  rw [show "StarList([".toList = "StarList".toList ++ "(".toList ++ "[".toList from rfl, show "])".toList = "]".toList ++ ")".toList from rfl]
  simp only [commas, List.append_assoc] at this ⊢
  exact this

theorem entries_good {ks : List Str} {ts : List Str} {ps : List Py} (hk : ks.all (fun k => (literal k).isSome) = true)
    (hl : ks.length = ts.length) (h : TextsGood ts ps) : ∃ ps', allSome (ks.map literal) = some ps' ∧ EntriesGood ks ts ps' ps := by
  induction h generalizing ks with
  | nil =>
    have : ks = [] := List.length_eq_zero_iff.1 hl
    subst this
    exact ⟨[], rfl, .nil⟩
  | cons hg h1 _ ih =>
    cases ks with
    | nil => cases hl
    | cons k ks =>
      rw [List.all_cons, Bool.and_eq_true, Option.isSome_iff_exists] at hk
      obtain ⟨⟨pk, hpk⟩, hk⟩ := hk
      obtain ⟨ps', a1, a2⟩ := ih hk (by simpa using hl)
      refine ⟨pk :: ps', ?_, .cons (literal_good hpk).1.good (by omega) hg h1 a2⟩
      rw [List.map_cons, hpk, allSome, a1]; rfl

theorem signGood {minus : Bool} {t : Str} {e : Py} {lvl : Nat} (h : Good lvl t e) (h1 : 1 ≤ lvl) :
    GoodP ("drel_runtime.drel_dot(".toList ++ (if minus then "-1,".toList else "+1,".toList) ++ t ++ ")".toList)
      (apply "drel_runtime".toList ["drel_dot".toList] [.un (if minus then "-".toList else "+".toList) (.num "1".toList), e]) := by
  have hd := GoodP.dotted (s := "drel_runtime.drel_dot".toList) (a := "drel_runtime".toList) (r := ["drel_dot".toList]) (by decide +kernel)
  cases minus with
  | true =>
    have := hd.call (.two (good_sign (o := "-".toList) (.inl rfl)) (by omega) h h1)
    rw [if_pos rfl, if_pos rfl, show "drel_runtime.drel_dot(".toList = "drel_runtime.drel_dot".toList ++ "(".toList from rfl,
      show "-1,".toList = "-".toList ++ "1".toList ++ [','] from rfl]
    simp only [commas, List.append_assoc, List.cons_append, List.nil_append] at this ⊢
    exact this
  | false =>
    have := hd.call (.two (good_sign (o := "+".toList) (.inr rfl)) (by omega) h h1)
    rw [if_neg (by simp), if_neg (by simp), show "drel_runtime.drel_dot(".toList = "drel_runtime.drel_dot".toList ++ "(".toList from rfl,
      show "+1,".toList = "+".toList ++ "1".toList ++ [','] from rfl]
    simp only [commas, List.append_assoc, List.cons_append, List.nil_append] at this ⊢
    exact this

theorem atom_paren {o t c : Str} (h : '(' ∈ o) : ident (o ++ t ++ c) = false :=
  not_ident (c := '(') (List.mem_append_left _ (List.mem_append_left _ h)) (by decide)

theorem index_not_ident (t u : Str) : ident (t ++ "[".toList ++ u ++ "]".toList) = false :=
  not_ident (c := '[') (List.mem_append_left _ (List.mem_append_left _ (List.mem_append_right _ (by decide)))) (by decide)

/-- The primary of an attribute or subscript is not a name bound to a category or holding a packet, unless it is a name. -/
theorem not_bound (hB : BindOk ids packets) {t : Str} (h : ident t = false) : dget ids t = none ∧ dget packets t = none := by
  constructor
  · cases hd : dget ids t with
    | none => rfl
    | some al => rw [(hB.ids _ _ hd).1] at h; cases h
  · cases hd : dget packets t with
    | none => rfl
    | some c => rw [hB.packets _ _ hd] at h; cases h

/-- The translation of a name that is a variable or a category. -/
theorem nameText_var {s : Str} (h : isPi s = false) : nameText s = s := by
  simp only [isPi, Bool.or_eq_false_iff, decide_eq_false_iff_not] at h
  unfold nameText
  rw [if_neg h.2, if_neg h.1]

theorem keyNames_mem {c : Str} {ks : List Str} (h : keyNames env c = .ok ks) : c ∈ dkeys env.loopable := by
  unfold keyNames at h
  cases hd : dget env.loopable c with
  | none => rw [hd] at h; cases h
  | some x => exact dget_isSome.1 ⟨x, hd⟩

theorem ident_ne {s : Str} (h : ident s = true) : s ≠ [] := by rintro rfl; revert h; decide

theorem literal_head {s : Str} {p : Py} (h : literal s = some p) : s.head? ≠ some '_' := by
  intro hh
  cases s with
  | nil => cases hh
  | cons c r =>
    rw [List.head?_cons] at hh
    have hc := Option.some.inj hh
    subst hc
    unfold literal at h
    split at h
    · rename_i hn
      rcases (numGood hn).2.1 with h | ⟨h, _⟩
      · revert h; decide
      · revert h; decide
    · dsimp only at h
      rw [if_neg (by decide)] at h
      dsimp only at h
      rw [if_neg (fun h => absurd h.1 (by decide))] at h
      cases h

theorem cat_none {p : Expr} (h : isCategory (catsOf env ids) p = false) (W : Dict Str (Str × Nat × Bool)) :
    category (viewOf env tg ids packets W) p = none := by
  cases p with
  | tag t => cases h
  | name x =>
    simp only [isCategory, catsOf, Bool.or_eq_false_iff] at h
    have h1 : dget ids x = none := by simpa using h.1
    show (match dget ids x with | some al => some al.cat | none => if (dkeys env.loopable).contains x then some x else none) = none
    rw [h1]
    dsimp only
    rw [h.2]; rfl
  | _ => rfl

theorem chosen_none {e : Expr} (h : fits (catsOf env ids) (ownOf env ids) rhs false e = true) : chosen env tg ids packets e = none := by
  cases e with
  | sub p i =>
    rw [fits, Bool.and_eq_true] at h
    cases hc : isCategory (catsOf env ids) p with
    | true => rw [hc, if_pos rfl, Bool.false_and] at h; cases h.1
    | false => exact cat_none hc []
  | _ => rfl

theorem Out.sub_nil {e : Expr} {st st' : St} {txt : Str} (h : Out env tg ids packets rhs e st txt st')
    (hf : fits (catsOf env ids) (ownOf env ids) rhs false e = true) : st'.sub = [] := by
  have := h.sub
  rw [chosen_none hf] at this
  by_cases hs : st'.sub = []
  · exact hs
  · rw [if_neg hs] at this; cases this

theorem expr_sub_other {p i : Expr} {st : St} (h : ∀ t, p ≠ .tag t) : expr env (.sub p i) st =
    match expr env p st with
      | .error x => .error x
      | .ok (t, st) =>
        match lookedUp env t st with
        | some c =>
          match keyNames env c with
          | .error x => .error x
          | .ok ks =>
            match expr env i (st.dependAll ks) with
            | .error x => .error x
            | .ok (u, st) => .ok (semanticPacket u (quoted '\'' c), { st with sub := c })
        | none =>
          match expr env i st with
          | .error x => .error x
          | .ok (u, st) => .ok (t ++ "[".toList ++ u ++ "]".toList, st) := by
  cases p with
  | tag t => exact absurd rfl (h t)
  | _ => (conv => lhs; unfold expr); rfl

theorem packet_not_ident (k c : Str) : ident (semanticPacket k c) = false :=
  not_ident (c := '(') (List.mem_append_left _ (List.mem_append_left _ (List.mem_append_left _ (List.mem_append_left _ (by decide)))))
    (by decide)

/-- The translation of a chosen packet, from that of the key. -/
theorem chosen_good (hE : EnvOk env tg) {p i : Expr} {c : Str} {ks : List Str} {u : Str} {st st1 : St}
    (hcat : ∀ W, category (viewOf env tg ids packets W) p = some c) (hk : keyNames env c = .ok ks)
    (ho : Out env tg ids packets rhs i (st.dependAll ks) u st1) :
    Out env tg ids packets rhs (.sub p i) st (semanticPacket u (quoted '\'' c)) { st1 with sub := c } := by
  obtain ⟨hI, hext, -, -, -, q, hq, hm⟩ := ho
  have hid := hE.loops c (keyNames_mem hk)
  obtain ⟨-, -, -, f4, -⟩ := dependAll_fields ks st
  rw [f4] at hext
  refine ⟨hI.of_fields rfl rfl rfl rfl, hext, ?_, fun _ => packet_not_ident _ _, fun h => (by cases h), _,
    GoodP.at (keyedGood hq.1 (plvl_pos i) (ident_plain hid)) rfl, fun W hW => ?_⟩
  · rw [if_neg (ident_ne hid)]
    exact (hcat []).symm
  · rw [means, hcat W]
    dsimp only
    rw [hm W hW, if_pos]
    · rfl
    · exact List.contains_iff_mem.2 (keyNames_mem hk)

theorem notTag {p : Expr} {top : Bool} (h : fits (catsOf env ids) (ownOf env ids) rhs top p = true) : ∀ t, p ≠ .tag t := by
  rintro t rfl
  rw [fits] at h; cases h

/-- The text of something that is not a category is not looked up. -/
theorem lookedUp_none (hE : EnvOk env tg) (hB : BindOk ids packets) {p : Expr} {t : Str} {st st1 : St}
    (ho : Out env tg ids packets rhs p st t st1) (hx : expr env p st = .ok (t, st1)) (hc : isCategory (catsOf env ids) p = false)
    (hpi : notPi p = true) : lookedUp env t st1 = none := by
  have main : dget ids t = none → t ∉ dkeys env.loopable → lookedUp env t st1 = none := by
    intro h1 h2
    unfold lookedUp
    rw [ho.inv.ids, h1]
    exact if_neg h2
  cases hw : isWord p with
  | false =>
    have hid := ho.notId hw
    refine main (not_bound hB hid).1 fun h => ?_
    rw [hE.loops t h] at hid; cases hid
  | true =>
    cases p with
    | name x =>
      rw [expr, nameText_var (by simpa [notPi] using hpi)] at hx
      cases hx
      simp only [isCategory, catsOf, Bool.or_eq_false_iff, Option.isSome_eq_false_iff, Option.isNone_iff_eq_none, List.contains_eq_mem,
        decide_eq_false_iff_not] at hc
      exact main hc.1 hc.2
    | _ => cases hw

theorem ItemOut.out {e : Expr} {st st' : St} {txt : Str} {m : View → Option Py} (h : ItemOut env tg ids packets rhs st txt st' m)
    (h1 : plvl e = 11) (h2 : isAtom e = false) (h3 : chosen env tg ids packets e = none) (hm : ∀ W, means (viewOf env tg ids packets W) e = m (viewOf env tg ids packets W)) :
    Out env tg ids packets rhs e st txt st' := by
  obtain ⟨a1, a2, a3, a4, p, hp, hpm⟩ := h
  refine ⟨a1, a2, ?_, fun _ => a4, fun h => (by rw [h2] at h; cases h), p, GoodP.at hp h1, fun W hW => by rw [hm, hpm W hW]⟩
  rw [if_pos a3, h3]

mutual
/-- The text of a fitting expression is the expression it stands for. -/
theorem expr_good (hE : EnvOk env tg) (hB : BindOk ids packets) : (e : Expr) → ∀ (top : Bool) {st st' : St} {txt : Str},
    Inv ids packets rhs st → st.sub = [] → fits (catsOf env ids) (ownOf env ids) rhs top e = true → expr env e st = .ok (txt, st') →
    Out env tg ids packets rhs e st txt st'
  | .name s, top, st, st', txt, hI, hs, hf, h => by
    rw [expr] at h; cases h
    rw [fits] at hf
    obtain ⟨p, hp, hm⟩ := nameText_good (env := env) (tg := tg) (ids := ids) (packets := packets) hf []
    refine ⟨hI, .refl _, if_pos hs, fun h => (by cases h), fun _ h => (by cases h), p, GoodP.at hp rfl, fun W _ => ?_⟩
    rw [← hm]; rfl
  | .tag s, top, st, st', txt, hI, hs, hf, h => by rw [fits] at hf; cases hf
  | .lit s, top, st, st', txt, hI, hs, hf, h => by
    rw [expr] at h; cases h
    rw [fits, Option.isSome_iff_exists] at hf
    obtain ⟨p, hp⟩ := hf
    refine ⟨hI, .refl _, if_pos hs, fun _ => (literal_good hp).2, fun _ _ => literal_head hp, p, GoodP.at (literal_good hp).1 rfl, fun W _ => ?_⟩
    rw [means, hp]
  | .group es, top, st, st', txt, hI, hs, hf, h => by
    rw [fits, Bool.and_eq_true] at hf
    rw [expr] at h
    have hne : es.isEmpty = false := by simpa using hf.1
    rw [hne, if_neg (by simp)] at h
    cases hx : exprs env es st with
    | error x => rw [hx] at h; cases h
    | ok r =>
      obtain ⟨ts, st1⟩ := r
      rw [hx] at h; cases h
      obtain ⟨hI', hext, hsub, ps, hg, hlen, hm⟩ := exprs_good hE hB es hI hs hf.2 hx
      have hpne : ps ≠ [] := by
        rintro rfl
        cases es with
        | nil => cases hne
        | cons => cases hlen
      have hreal : missing (tupled ps) = false := by
        cases ps with
        | nil => exact absurd rfl hpne
        | cons p r =>
          cases r with
          | nil =>
            cases hg with
            | cons hg _ _ => exact hg.real
          | cons => rfl
      refine ⟨hI', hext, if_pos hsub, fun _ => atom_paren (by decide), fun _ _ h => absurd (Option.some.inj h) (by decide), tupled ps, GoodP.at (GoodP.paren hg hreal (.inl rfl)) rfl, fun W hW => ?_⟩
      rw [means, hm W hW]
      cases ps with
      | nil => exact absurd rfl hpne
      | cons p r => cases r <;> rfl
  | .list es, top, st, st', txt, hI, hs, hf, h => by
    rw [fits, Bool.and_eq_true] at hf
    rw [expr] at h
    cases hemp : es.isEmpty with
    | true =>
      rw [hemp, if_pos rfl] at h; cases h
      rw [List.isEmpty_iff] at hemp
      subst hemp
      refine ⟨hI, .refl _, if_pos hs, fun _ => by decide, fun _ _ => by decide, _, GoodP.at (listText_good .nil) rfl, fun W _ => ?_⟩
      rw [means, meanings]; rfl
    | false =>
      rw [hemp, if_neg (by simp)] at h
      rw [hemp, Bool.or_false] at hf
      cases hx : exprs env es st with
      | error x => rw [hx] at h; cases h
      | ok r =>
        obtain ⟨ts, st1⟩ := r
        rw [hx] at h; cases h
        obtain ⟨hI', hext, hsub, ps, hg, hlen, hm⟩ := exprs_good hE hB es hI hs hf.2 hx
        rw [listText, if_pos (hI.rhs hf.1)]
        refine ⟨hI', hext, if_pos hsub, fun _ => atom_paren (by decide), fun _ _ h => absurd (Option.some.inj h) (by decide), _, GoodP.at (listText_good hg) rfl, fun W hW => ?_⟩
        rw [means, hm W hW]; rfl
  | .table ks vs, top, st, st', txt, hI, hs, hf, h => by
    rw [fits, Bool.and_eq_true, Bool.and_eq_true, beq_iff_eq] at hf
    rw [expr] at h
    cases hemp : ks.isEmpty with
    | true =>
      rw [hemp, if_pos rfl] at h; cases h
      rw [List.isEmpty_iff] at hemp
      subst hemp
      have hv : vs = [] := List.length_eq_zero_iff.1 hf.1.1.symm
      subst hv
      refine ⟨hI, .refl _, if_pos hs, fun _ => by decide, fun _ _ => by decide, apply "StarTable".toList [] [.dict [] []], GoodP.at ?_ rfl, fun W _ => ?_⟩
      · exact (GoodP.name (s := "StarTable".toList) (by decide)).call (.one (GoodP.dict .nil).good (by omega))
      · rw [means, meanings]; rfl
    | false =>
      rw [hemp, if_neg (by simp)] at h
      cases hx : exprs env vs st with
      | error x => rw [hx] at h; cases h
      | ok r =>
        obtain ⟨ts, st1⟩ := r
        rw [hx] at h; cases h
        obtain ⟨hI', hext, hsub, ps, hg, hlen, hm⟩ := exprs_good hE hB vs hI hs hf.2 hx
        obtain ⟨ps', hk, hent⟩ := entries_good hf.1.2 (by rw [hf.1.1, hg.length, hlen]) hg
        refine ⟨hI', hext, if_pos hsub, fun _ => ?_, fun _ _ h => absurd (Option.some.inj h) (by decide), .dict ps' ps, GoodP.at (GoodP.dict hent) rfl, fun W hW => ?_⟩
        · exact not_ident (c := '{') (List.mem_append_left _ (List.mem_append_left _ (by decide))) (by decide)
        · rw [means, hk, hm W hW]
          have : ps'.isEmpty = false := by
            cases hent with
            | nil => cases hemp
            | cons => rfl
          dsimp only
          rw [this]; rfl
  | .attr p a, top, st, st', txt, hI, hs, hf, h => by
    rw [fits, Bool.and_eq_true, Bool.and_eq_true, Bool.or_eq_true, Bool.and_eq_true, Bool.and_eq_true, beq_iff_eq, Bool.not_eq_true'] at hf
    obtain ⟨⟨hpl, hown⟩, hf⟩ := hf
    rw [expr] at h
    have hpl : plain a = true := hpl
    cases hx : expr env p st with
    | error x => rw [hx] at h; cases h
    | ok r =>
      obtain ⟨t, st1⟩ := r
      rw [hx] at h
      dsimp only at h
      rcases hf with htag | ⟨⟨h9, hpi⟩, hfp⟩
      · cases p with
        | tag s =>
          obtain ⟨rfl, rfl⟩ : s = t ∧ st = st1 := by rw [expr] at hx; cases hx; exact ⟨rfl, rfl⟩
          unfold attrText at h
          rw [hI.ids] at h
          cases hal : dget ids s with
          | some al =>
            rw [hal] at h
            refine (special_good hE (hB.ids _ _ hal).2.2 (fun hl n hn => own_ne hE hal hown hl hn) hI hs h).out rfl rfl rfl fun W => ?_
            rw [means]
            show (match (match dget ids s with | some al => some (current _ al a) | none => _) with | some r => r | none => _) = _
            rw [hal]
          | none =>
            rw [hal] at h
            cases s with
            | nil => cases htag
            | cons c s =>
              have hc : c = '_' := by
                have h : tagName (c :: s) = true := htag
                unfold tagName at h
                split at h
                · rename_i he; exact (List.cons.inj he).1
                · cases h
              dsimp only at h
              rw [if_pos ⟨rfl, hc⟩] at h
              refine (tag_good hE hI hs h).out rfl rfl rfl fun W => ?_
              rw [means]
              show (match (match dget ids (c :: s) with | some al => some (current _ al a) | none => some _) with | some r => r | none => _) = _
              rw [hal]
        | _ => cases htag
      · have ho := expr_good hE hB p true hI hs hfp hx
        cases hw : isWord p with
        | true =>
          cases p with
          | name x =>
            obtain ⟨rfl, rfl⟩ : x = t ∧ st = st1 := by
              rw [expr, nameText_var (by simpa [notPi] using hpi)] at hx
              cases hx; exact ⟨rfl, rfl⟩
            rw [fits] at hfp
            unfold attrText at h
            rw [hI.ids] at h
            cases hal : dget ids x with
            | some al =>
              rw [hal] at h
              refine (special_good hE (hB.ids _ _ hal).2.2 (fun hl n hn => own_ne hE hal hown hl hn) hI hs h).out rfl rfl rfl fun W => ?_
              rw [means]
              show (match (dget ids x).map (fun al => current _ al a) with | some r => r | none => _) = _
              rw [hal]; rfl
            | none =>
              rw [hal] at h
              have hit : ∀ W, item (viewOf env tg ids packets W) (.name x) a = none := by
                intro W
                show (dget ids x).map (fun al => current _ al a) = _
                rw [hal]; rfl
              have hplain : plainAttr env x a st = .ok (txt, st') := by
                cases x with
                | nil => cases hfp
                | cons c r =>
                  dsimp only at h
                  rw [if_neg] at h
                  · exact h
                  · rintro ⟨-, rfl⟩
                    simp only [varName, Bool.and_eq_true, List.head?_cons, Option.any_some] at hfp
                    exact absurd hfp.2 (by decide)
              obtain ⟨q, hq, hm⟩ := ho.good
              obtain ⟨a1, a2, a3, a4, r, hr, hrm⟩ := member_good hE hI hq.1 (plvl_pos _) hpl rfl hplain
              rw [if_pos hs, Option.or_none] at hrm
              refine ⟨a1, by rw [a2]; exact .refl _, if_pos a3, fun _ => a4, fun h => (by cases h), r, GoodP.at hr rfl, fun W hW => ?_⟩
              rw [means, hit W]
              dsimp only
              rw [hm W (by rw [a2] at hW; exact hW), ← hrm W]
              rfl
          | _ => cases hw
        | false =>
          have hid := ho.notId hw
          obtain ⟨hb1, hb2⟩ := not_bound hB hid
          unfold attrText at h
          rw [ho.inv.ids, hb1] at h
          have hplain : plainAttr env t a st1 = .ok (txt, st') := by
            cases t with
            | nil =>
              obtain ⟨q, hq, -⟩ := ho.good
              obtain ⟨c, hc, -⟩ := hq.1.start
              cases hc
            | cons c r =>
              dsimp only at h
              rw [if_neg] at h
              · exact h
              · rintro ⟨h1, rfl⟩
                exact ho.head h1 hw rfl
          obtain ⟨q, hq, hm⟩ := ho.good
          obtain ⟨a1, a2, a3, a4, r, hr, hrm⟩ := member_good hE ho.inv hq.1 (plvl_pos _) hpl rfl hplain
          rw [hb2, Option.none_or, ho.sub] at hrm
          refine ⟨a1, by rw [a2]; exact ho.ext, if_pos a3, fun _ => a4, fun h => (by cases h), r, GoodP.at hr rfl, fun W hW => ?_⟩
          have hit : item (viewOf env tg ids packets W) p a = none := by
            cases p with
            | name x => cases hw
            | tag x => rw [fits] at hfp; cases hfp
            | _ => rfl
          have hpk : packetOf (viewOf env tg ids packets W) p = chosen env tg ids packets p := by
            cases p with
            | name x => cases hw
            | sub p' i =>
              show category _ p' = category _ p'
              cases p' <;> rfl
            | _ => rfl
          rw [means, hit]
          dsimp only
          rw [hm W (by rw [a2] at hW; exact hW), ← hrm W, hpk]
          rfl
  | .sub p i, top, st, st', txt, hI, hs, hf, h => by
    rw [fits, Bool.and_eq_true] at hf
    obtain ⟨hfp, hfi⟩ := hf
    have next : ∀ {c : Str} {ks : List Str} {u : Str} {st1 : St}, keyNames env c = .ok ks →
        (∀ W, category (viewOf env tg ids packets W) p = some c) → expr env i (st.dependAll ks) = .ok (u, st1) →
        Out env tg ids packets rhs (.sub p i) st (semanticPacket u (quoted '\'' c)) { st1 with sub := c } := by
      intro c ks u st1 hk hcat hx
      obtain ⟨f1, f2, f3, f4, f5⟩ := dependAll_fields ks st
      exact chosen_good hE hcat hk (expr_good hE hB i false (hI.of_fields f1 f2 f3 f4) (f5.trans hs) hfi hx)
    cases hc : isCategory (catsOf env ids) p with
    | true =>
      rw [hc, if_pos rfl, Bool.and_eq_true] at hfp
      cases p with
      | tag s =>
        rw [expr] at h
        cases hk : keyNames env s.tail with
        | error x => rw [hk] at h; cases h
        | ok ks =>
          rw [hk] at h
          dsimp only at h
          cases hx : expr env i (st.dependAll ks) with
          | error x => rw [hx] at h; cases h
          | ok r =>
            obtain ⟨u, st1⟩ := r
            rw [hx] at h; cases h
            exact next hk (fun _ => rfl) hx
      | name x =>
        rw [expr_sub_other (by simp)] at h
        have hv : varName x = true ∧ isPi x = false := by simpa [named] using hfp.2
        rw [expr, nameText_var hv.2] at h
        dsimp only at h
        have hl : ∃ c, lookedUp env x st = some c ∧ ∀ W, category (viewOf env tg ids packets W) (.name x) = some c := by
          unfold lookedUp
          rw [hI.ids]
          cases hal : dget ids x with
          | some al => exact ⟨_, rfl, fun W => by
              show (match dget ids x with | some al => some al.cat | none => _) = _
              rw [hal]⟩
          | none =>
            simp only [isCategory, catsOf, hal, Option.isSome_none, Bool.false_or] at hc
            refine ⟨x, if_pos (by simpa using hc), fun W => ?_⟩
            show (match dget ids x with | some al => some al.cat | none => if (dkeys env.loopable).contains x then some x else none) = _
            rw [hal]
            exact if_pos hc
        obtain ⟨c, hl, hcat⟩ := hl
        rw [hl] at h
        dsimp only at h
        cases hk : keyNames env c with
        | error x => rw [hk] at h; cases h
        | ok ks =>
          rw [hk] at h
          dsimp only at h
          cases hx : expr env i (st.dependAll ks) with
          | error x => rw [hx] at h; cases h
          | ok r =>
            obtain ⟨u, st1⟩ := r
            rw [hx] at h; cases h
            exact next hk hcat hx
      | _ => cases hc
    | false =>
      rw [hc, if_neg (by simp), Bool.and_eq_true, Bool.and_eq_true, beq_iff_eq] at hfp
      obtain ⟨⟨h9, hpi⟩, hfp⟩ := hfp
      rw [expr_sub_other (notTag hfp)] at h
      cases hx : expr env p st with
      | error x => rw [hx] at h; cases h
      | ok r =>
        obtain ⟨t, st1⟩ := r
        rw [hx] at h
        dsimp only at h
        have ho := expr_good hE hB p false hI hs hfp hx
        rw [lookedUp_none hE hB ho hx hc hpi] at h
        dsimp only at h
        cases hy : expr env i st1 with
        | error x => rw [hy] at h; cases h
        | ok r =>
          obtain ⟨u, st2⟩ := r
          rw [hy] at h; cases h
          have ho2 := expr_good hE hB i false ho.inv (ho.sub_nil hfp) hfi hy
          obtain ⟨q, hq, hm⟩ := ho.good
          obtain ⟨k, hk, hkm⟩ := ho2.good
          refine ⟨ho2.inv, ho.ext.trans ho2.ext, ?_, fun _ => index_not_ident _ _, fun h => (by cases h), .index q k,
            GoodP.at (indexGood (hq.2 (plvl_level h9)) hk.1 (plvl_pos i)) rfl, fun W hW => ?_⟩
          · rw [if_pos (ho2.sub_nil hfi)]; exact (cat_none hc []).symm
          · rw [means, cat_none hc W]
            dsimp only
            rw [hm W (ho2.ext.trans hW), hkm W hW]
  | .items p es, top, st, st', txt, hI, hs, hf, h => by
    rw [fits, Bool.and_eq_true, Bool.and_eq_true, Bool.and_eq_true, beq_iff_eq, decide_eq_true_eq] at hf
    obtain ⟨⟨⟨h9, hfp⟩, hlen2⟩, hfe⟩ := hf
    rw [expr] at h
    cases hx : expr env p st with
    | error x => rw [hx] at h; cases h
    | ok r =>
      obtain ⟨t, st1⟩ := r
      rw [hx] at h
      dsimp only at h
      have ho := expr_good hE hB p false hI hs hfp hx
      cases hy : exprs env es st1 with
      | error x => rw [hy] at h; cases h
      | ok r =>
        obtain ⟨us, st2⟩ := r
        rw [hy] at h; cases h
        obtain ⟨hI2, hext2, hsub2, ps, hg, hlen, hm2⟩ := exprs_good hE hB es ho.inv (ho.sub_nil hfp) hfe hy
        obtain ⟨q, hq, hm⟩ := ho.good
        have hne : us ≠ [] := by
          rintro rfl
          have := hg.length
          simp only [List.length_nil] at this
          omega
        refine ⟨hI2, ho.ext.trans hext2, if_pos hsub2, fun _ => index_not_ident _ _, fun h => (by cases h), _,
          GoodP.at ((hq.2 (plvl_level h9)).index hg hne) rfl, fun W hW => ?_⟩
        rw [means, hm W (hext2.trans hW), hm2 W hW]
        dsimp only
        match ps, hlen with
        | [], hlen => simp only [List.length_nil] at hlen; omega
        | [_], hlen => simp only [List.length_cons, List.length_nil] at hlen; omega
        | _ :: _ :: _, _ => rfl
  | .slice p parts, top, st, st', txt, hI, hs, hf, h => by
    rw [fits, Bool.and_eq_true, Bool.and_eq_true, Bool.and_eq_true, Bool.and_eq_true, beq_iff_eq, decide_eq_true_eq, decide_eq_true_eq] at hf
    obtain ⟨⟨⟨⟨h9, hfp⟩, hlen1⟩, hlen3⟩, hfe⟩ := hf
    rw [expr] at h
    cases hx : expr env p st with
    | error x => rw [hx] at h; cases h
    | ok r =>
      obtain ⟨t, st1⟩ := r
      rw [hx] at h
      dsimp only at h
      have ho := expr_good hE hB p false hI hs hfp hx
      cases hy : exprs env parts st1 with
      | error x => rw [hy] at h; cases h
      | ok r =>
        obtain ⟨us, st2⟩ := r
        rw [hy] at h
        dsimp only at h
        obtain ⟨hI2, hext2, hsub2, ps, hg, hlen, hm2⟩ := exprs_good hE hB parts ho.inv (ho.sub_nil hfp) hfe hy
        obtain ⟨q, hq, hm⟩ := ho.good
        cases hu : sliceText us with
        | error x => rw [hu] at h; cases h
        | ok u =>
          rw [hu] at h; cases h
          have hl := hg.length
          obtain ⟨i, hi, hgi⟩ := sliceText_good (hq.2 (plvl_level h9)) hg (by omega) (by omega) hu
          refine ⟨hI2, ho.ext.trans hext2, if_pos hsub2, fun _ => index_not_ident _ _, fun h => (by cases h), _,
            GoodP.at hgi rfl, fun W hW => ?_⟩
          rw [means, hm W (hext2.trans hW), hm2 W hW]
          dsimp only
          rw [hi]; rfl
  | .slices p, top, st, st', txt, hI, hs, hf, h => by rw [fits] at hf; cases hf
  | .int0, top, st, st', txt, hI, hs, hf, h => by rw [fits] at hf; cases hf
  | .call f args, top, st, st', txt, hI, hs, hf, h => by
    rw [fits, Bool.or_eq_true, beq_iff_eq, Bool.and_eq_true, Bool.and_eq_true, Bool.and_eq_true] at hf
    rw [expr] at h
    by_cases hc : f = "Current_Row".toList
    · rw [if_pos hc] at h; cases h
      refine ⟨hI.of_fields rfl rfl rfl rfl, .refl _, if_pos hs, fun _ => by decide, fun h => (by cases h), _,
        GoodP.at (GoodP.name (by decide)) rfl, fun W _ => ?_⟩
      rw [means, if_pos hc]
    · rw [if_neg hc] at h
      obtain ⟨⟨⟨hv, hn⟩, hu⟩, hfa⟩ := hf.resolve_left hc
      cases hy : exprs env args st with
      | error x => rw [hy] at h; cases h
      | ok r =>
        obtain ⟨us, st2⟩ := r
        rw [hy] at h; cases h
        obtain ⟨hI2, hext2, hsub2, ps, hg, hlen, hm2⟩ := exprs_good hE hB args hI hs hfa hy
        have hpn : pyName f = true := by
          unfold varName at hv
          exact (Bool.and_eq_true _ _ ▸ hv).1
        have hun : lower f ∈ unary → us.length = 1 := by
          intro hm
          have := hg.length
          rw [Bool.or_eq_true, beq_iff_eq] at hu
          rcases hu with hu | hu
          · simp only [Bool.not_eq_true', List.contains_eq_mem, decide_eq_false_iff_not] at hu
            exact absurd hm hu
          · omega
        obtain ⟨p, hp, hgp⟩ := call_good hpn (by simpa using hn) hun hg
        refine ⟨hI2, hext2, if_pos hsub2, fun _ => not_ident (paren_callText f us) (by decide), fun h => (by cases h), p,
          GoodP.at hgp rfl, fun W hW => ?_⟩
        rw [means, if_neg hc, hm2 W hW]
        exact hp
  | .op o a b, top, st, st', txt, hI, hs, hf, h => by
    rw [fits, Bool.and_eq_true, Bool.and_eq_true, Bool.and_eq_true, Bool.and_eq_true, decide_eq_true_eq, decide_eq_true_eq] at hf
    obtain ⟨⟨⟨⟨h1, h2⟩, h3⟩, hfa⟩, hfb⟩ := hf
    rw [expr] at h
    cases hx : expr env a st with
    | error x => rw [hx] at h; cases h
    | ok r =>
      obtain ⟨t, st1⟩ := r
      rw [hx] at h
      dsimp only at h
      have ho := expr_good hE hB a false hI hs hfa hx
      cases hy : expr env b st1 with
      | error x => rw [hy] at h; cases h
      | ok r =>
        obtain ⟨u, st2⟩ := r
        rw [hy] at h; cases h
        have ho2 := expr_good hE hB b false ho.inv (ho.sub_nil hfa) hfb hy
        obtain ⟨q, hq, hm⟩ := ho.good
        obtain ⟨k, hk, hkm⟩ := ho2.good
        refine ⟨ho2.inv, ho.ext.trans ho2.ext, if_pos (ho2.sub_nil hfb), fun _ => mathop_not_ident _ _ _, fun h => (by cases h), _,
          mathop_good h1 h2 (fun ho => by rw [ho.1, ho.2] at h3; cases h3) hq hk, fun W hW => ?_⟩
        rw [means, hm W (ho2.ext.trans hW), hkm W hW]
  | .sign minus a, top, st, st', txt, hI, hs, hf, h => by
    rw [fits] at hf
    rw [expr] at h
    cases hx : expr env a st with
    | error x => rw [hx] at h; cases h
    | ok r =>
      obtain ⟨t, st1⟩ := r
      rw [hx] at h; cases h
      have ho := expr_good hE hB a false hI hs hf hx
      obtain ⟨q, hq, hm⟩ := ho.good
      refine ⟨ho.inv, ho.ext, if_pos (ho.sub_nil hf), fun _ => ?_, fun h => (by cases h), _,
        GoodP.at (signGood hq.1 (plvl_pos a)) rfl, fun W hW => ?_⟩
      · exact not_ident (c := '(') (List.mem_append_left _ (List.mem_append_left _ (List.mem_append_left _ (by decide)))) (by decide)
      · rw [means, hm W hW]; rfl
  | .not a, top, st, st', txt, hI, hs, hf, h => by
    rw [fits, Bool.and_eq_true, decide_eq_true_eq] at hf
    rw [expr] at h
    cases hx : expr env a st with
    | error x => rw [hx] at h; cases h
    | ok r =>
      obtain ⟨t, st1⟩ := r
      rw [hx] at h; cases h
      have ho := expr_good hE hB a false hI hs hf.2 hx
      obtain ⟨q, hq, hm⟩ := ho.good
      have hl : 3 ≤ plvl a := by
        have := plvl_ge a
        omega
      refine ⟨ho.inv, ho.ext, if_pos (ho.sub_nil hf.2), fun _ => ?_, fun h => (by cases h), _,
        ⟨Good.not hq.1 hl, fun h => (by cases h)⟩, fun W hW => ?_⟩
      · exact not_ident (c := ' ') (List.mem_append_left _ (by decide)) (by decide)
      · rw [means, hm W hW]; rfl
/-- The texts of fitting expressions. -/
theorem exprs_good (hE : EnvOk env tg) (hB : BindOk ids packets) : (es : List Expr) → ∀ {st st' : St} {ts : List Str},
    Inv ids packets rhs st → st.sub = [] → allFit (catsOf env ids) (ownOf env ids) rhs es = true → exprs env es st = .ok (ts, st') →
    Outs env tg ids packets rhs es st ts st'
  | [], st, st', ts, hI, hs, hf, h => by
    rw [exprs] at h; cases h
    exact ⟨hI, .refl _, hs, [], .nil, rfl, fun W _ => by rw [meanings]⟩
  | e :: r, st, st', ts, hI, hs, hf, h => by
    rw [allFit, Bool.and_eq_true] at hf
    rw [exprs] at h
    cases hx : expr env e st with
    | error x => rw [hx] at h; cases h
    | ok y =>
      obtain ⟨t, st1⟩ := y
      rw [hx] at h
      dsimp only at h
      have ho := expr_good hE hB e false hI hs hf.1 hx
      cases hy : exprs env r st1 with
      | error x => rw [hy] at h; cases h
      | ok y =>
        obtain ⟨us, st2⟩ := y
        rw [hy] at h; cases h
        obtain ⟨hI2, hext2, hsub2, ps, hg, hlen, hm2⟩ := exprs_good hE hB r ho.inv (ho.sub_nil hf.1) hf.2 hy
        obtain ⟨q, hq, hm⟩ := ho.good
        refine ⟨hI2, ho.ext.trans hext2, hsub2, q :: ps, .cons hq.1 (plvl_pos e) hg, by simp [hlen], fun W hW => ?_⟩
        rw [meanings, hm W (hext2.trans hW), hm2 W hW]
end

end DrelMeaning
end Verif
