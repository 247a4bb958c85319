/-
Elements of a formatted text, and how the parser reads them from the source.
No definition here is part of the model.
-/
import Verif.Semi.Run
import Verif.Relation.Texts
import Verif.Lemmas.Look
import Verif.Group.Hoare

namespace Verif.Echo
open Verif.Spec

/-- An element of a formatted text: a blank, or a token. -/
inductive E where
  | sp
  | kw (s : Str)
  | op (k : Str)
  | word (n : Str) (q : Nat)
  | num (s : Str)
  | str (s : Str)
  /-- `AS`, which the source may lack -/
  | as_
  /-- a keyword, printed as it is written in the source -/
  | raw (s : Str)
deriving DecidableEq

/-- The kind of the token, as the parser writes it. -/
abbrev isKind (t : Token) (k : Kind) : Prop := t.kind.toStr = k.toStr

/-- The token of the source is written as this element. -/
def E.ok : E → Token → Prop
  | .sp, _ => False
  | .kw s, t => isKind t .keyword ∧ upper t.str = s
  | .op k, t => isKind t (.op k)
  | .word n q, t => (isKind t .ident ∨ isKind t .keyword) ∧ t.str = n ∧ t.quote = q
  | .num s, t => (isKind t .int ∨ isKind t .float) ∧ t.str = s
  | .str s, t => isKind t .string ∧ t.str = s
  | .as_, t => isKind t .keyword ∧ upper t.str = b!"AS"
  | .raw s, t => isKind t .keyword ∧ t.str = s

/-- Where a comma may be dropped: before a closing bracket, a keyword, or at the end. -/
def Closes (l : Lx) : Prop := ∀ t, l.cur = some t → isKind t (.op b!")") ∨ isKind t (.op b!"]") ∨ isKind t .keyword

/-- From `l` to `l'` the tokens are read that are written as `us`. -/
inductive Reads : Lx → List E → Lx → Prop
  | nil {l : Lx} : Reads l [] l
  | sp {l l' : Lx} {us : List E} : Reads l us l' → Reads l (.sp :: us) l'
  | tok {l l' : Lx} {t : Token} {u : E} {us : List E} : l.cur = some t → u.ok t → Reads l.advance us l' → Reads l (u :: us) l'
  | noAs {l l' : Lx} {t : Token} {us : List E} : l.cur = some t → isKind t .ident ∨ isKind t .keyword → Reads l us l' → Reads l (.as_ :: us) l'
  | comma {l l' : Lx} {t : Token} {us : List E} : l.cur = some t → isKind t (.op b!",") → Closes l.advance → Reads l.advance us l' → Reads l us l'
  /-- parentheses around a query -/
  | paren {l m l' : Lx} {t t' : Token} {us ws : List E} : l.cur = some t → isKind t (.op b!"(") →
      l.advance.matchKw b!"SELECT" = true ∨ l.advance.matchKw b!"WITH" = true →
      Reads l.advance us m → m.cur = some t' → isKind t' (.op b!")") → Reads m.advance ws l' → Reads l (us ++ ws) l'
  /-- parentheses after `USING` -/
  | using_ {l m l' : Lx} {t t' : Token} {us ws : List E} : l.matchKw b!"USING" = true → l.advance.cur = some t → isKind t (.op b!"(") →
      Reads l.advance.advance us m → m.cur = some t' → isKind t' (.op b!")") → Reads m.advance ws l' → Reads l ([.kw b!"USING", .sp] ++ us ++ ws) l'
  /-- `LIMIT a, b` -/
  | limit {l m k l' : Lx} {t : Token} {us ws xs : List E} : l.matchKw b!"LIMIT" = true → Reads l.advance us m → m.cur = some t → isKind t (.op b!",") →
      Reads m.advance ws k → Reads k xs l' → Reads l ([.kw b!"LIMIT", .sp] ++ ws ++ [.sp, .kw b!"OFFSET", .sp] ++ us ++ xs) l'

theorem Reads.trans {l l' l'' : Lx} {us ws : List E} (h : Reads l us l') (h' : Reads l' ws l'') : Reads l (us ++ ws) l'' := by
  induction h with
  | nil => exact h'
  | sp _ ih => exact .sp (ih h')
  | tok a b _ ih => exact .tok a b (ih h')
  | noAs a b _ ih => exact .noAs a b (ih h')
  | comma a b c _ ih => exact .comma a b c (ih h')
  | paren a b c d e f _ _ ih => rw [List.append_assoc]; exact .paren a b c d e f (ih h')
  | using_ a b c d e f _ _ ih => rw [List.append_assoc]; exact .using_ a b c d e f (ih h')
  | limit a b c d e _ _ _ ih => rw [List.append_assoc]; exact .limit a b c d e (ih h')

theorem Reads.one {l : Lx} {t : Token} {u : E} (h : l.cur = some t) (hu : u.ok t) : Reads l [u] l.advance := .tok h hu .nil

/-- Tokens that are written as they are read. -/
structure Regular (t : Token) : Prop where
  op : ∀ k, t.kind = .op k → t.str = k
  asc : isKind t .keyword → upper t.str ≠ b!"ASCENDING" ∧ upper t.str ≠ b!"DESCENDING"

/-- No lexical error lies ahead, and all tokens are regular. -/
def Clean (l : Lx) : Prop := ∃ P : Lx → Prop, P l ∧ ∀ m, P m → (∀ t, m.cur = some t → Regular t) ∧ ∃ m', m.consume = .ok m' ∧ P m'

theorem Clean.reg {l : Lx} (h : Clean l) {t : Token} (ht : l.cur = some t) : Regular t := by
  obtain ⟨P, h1, h2⟩ := h
  exact (h2 l h1).1 t ht

theorem Clean.consume {l : Lx} (h : Clean l) : l.consume = .ok l.advance ∧ Clean l.advance := by
  obtain ⟨P, h1, h2⟩ := h
  obtain ⟨m, h3, h4⟩ := (h2 l h1).2
  have : l.advance = m := by unfold Lx.advance; rw [h3]
  rw [this]
  exact ⟨h3, P, h4, h2⟩

theorem Clean.adv {l : Lx} (h : Clean l) : Clean l.advance := h.consume.2

theorem Clean.fine {l : Lx} (h : Clean l) : NextFine l := by
  intro l' hp
  unfold Lx.peek at hp
  rw [h.consume.1] at hp
  cases hp

theorem Clean.peek {l : Lx} (h : Clean l) : l.peek = .ok l.advance.cur l := by
  unfold Lx.peek
  rw [h.consume.1]

theorem clean_scan {l : Lx} {ts : List Token} (h : Scan l ts true) (hr : ∀ t ∈ ts, Regular t) (hc : ∀ t, l.cur = some t → Regular t) : Clean l := by
  refine ⟨fun m => (∃ ts, Scan m ts true ∧ ∀ t ∈ ts, Regular t) ∧ ∀ t, m.cur = some t → Regular t, ⟨⟨ts, h, hr⟩, hc⟩, ?_⟩
  rintro m ⟨⟨ts, h, hr⟩, hc⟩
  refine ⟨hc, ?_⟩
  cases h with
  | eof a b => exact ⟨_, a, ⟨[], scan_end a b, by simp⟩, by simp [b]⟩
  | tok a b c =>
    refine ⟨_, a, ⟨_, c, fun t ht => hr t (List.mem_cons_of_mem _ ht)⟩, fun t ht => ?_⟩
    rw [b] at ht
    cases ht
    exact hr _ List.mem_cons_self

/-! ### Cleanness is kept -/

theorem clean_takeKws : ∀ (ks : List Str) {l l' : Lx}, Clean l → l.takeKws ks = some l' → Clean l'
  | [], l, l', h, he => by simp [Lx.takeKws] at he; exact he ▸ h
  | k :: ks, l, l', h, he => by
    simp only [Lx.takeKws] at he
    split at he
    · exact clean_takeKws ks h.adv he
    · cases he

theorem clean_prim {s : PS} {env : List V} {p : Prim} {rs : List V} {l : Lx} (h : Clean s.lx) (he : p.run s env = some (rs, l)) : Clean l := by
  cases p with
  | consume =>
    simp only [Prim.run, h.consume.1, Option.some.injEq, Prod.mk.injEq] at he
    exact he.2 ▸ h.adv
  | tryKind k =>
    simp only [Prim.run, Option.map_eq_some_iff, Lx.tryKind] at he
    obtain ⟨k, _, he⟩ := he
    split at he
    · simp only [Prod.mk.injEq] at he; exact he.2 ▸ h.adv
    · simp only [Prod.mk.injEq] at he; exact he.2 ▸ h
  | expectKind k =>
    simp only [Prim.run, Option.map_eq_some_iff, Lx.tryKind] at he
    obtain ⟨k, _, he⟩ := he
    split at he <;> rename_i hh <;> split at hh <;> simp only [Prod.mk.injEq] at hh he <;> (obtain ⟨_, rfl⟩ := he; obtain ⟨_, rfl⟩ := hh)
    · exact h.adv
    · exact h
    · exact h.adv
    · exact h
  | expectKw k =>
    simp only [Prim.run, Option.map_eq_some_iff] at he
    obtain ⟨k, _, he⟩ := he
    split at he
    · simp only [Prod.mk.injEq] at he; exact he.2 ▸ h
    · simp only [Prod.mk.injEq] at he; exact he.2 ▸ h.adv
  | tryKws ks =>
    simp only [Prim.run, Lx.tryKws, Option.some.injEq] at he
    split at he
    · rename_i h1
      simp only [Prod.mk.injEq] at he
      obtain ⟨_, rfl⟩ := he
      exact clean_takeKws ks h h1
    · simp only [Prod.mk.injEq] at he
      exact he.2 ▸ h
  | peek =>
    simp only [Prim.run, h.peek, Option.some.injEq, Prod.mk.injEq] at he
    exact he.2 ▸ h
  | wrap e =>
    simp only [Prim.run, Option.map_eq_some_iff, Prod.mk.injEq] at he
    obtain ⟨_, _, _, rfl⟩ := he
    exact h

theorem clean_stmt {call : Fn → List V → PS → COut} {n : Nat}
    (hcall : ∀ f args s vs s', Clean s.lx → call f args s = .ret vs s' → Clean s'.lx) :
    ∀ (st : Stmt Fn) (fr : Frame) (s : PS), Clean s.lx → Clean fr.saved →
      (st.run call n fr s).Ens (.all (fun fr s => Clean s.lx ∧ Clean fr.saved) (fun _ s => Clean s.lx)) := by
  intro st
  induction st with
  | skip => exact fun fr s h1 h2 => ⟨h1, h2⟩
  | brk => exact fun fr s h1 h2 => ⟨h1, h2⟩
  | cont => exact fun fr s h1 h2 => ⟨h1, h2⟩
  | save => exact fun fr s h1 h2 => ⟨h1, h1⟩
  | restore => exact fun fr s h1 h2 => ⟨h2, h2⟩
  | memoAdd ln e => exact fun fr s h1 h2 => ens_memoAdd fun _ _ => ⟨h1, h2⟩
  | set ln x e => exact fun fr s h1 h2 => ens_set fun _ _ => ⟨h1, h2⟩
  | setF ln x p e => exact fun fr s h1 h2 => ens_setF fun _ _ _ _ _ _ => ⟨h1, h2⟩
  | ret ln es => exact fun fr s h1 h2 => ens_ret fun _ _ => h1
  | call ln f es dst => exact fun fr s h1 h2 => ens_call fun vs rs s' _ hr => ⟨hcall f vs s rs s' h1 hr, h2⟩
  | prim ln q dst => exact fun fr s h1 h2 => ens_prim fun rs l hr => ⟨clean_prim h1 hr, h2⟩
  | seq a b iha ihb =>
    exact fun fr s h1 h2 => ens_seq ((iha fr s h1 h2).mono (fun fr s h => ihb fr s h.1 h.2) (fun _ _ h => h) (fun _ _ h => h) (fun _ _ h => h))
  | ite ln c a b iha ihb =>
    intro fr s h1 h2
    refine ens_ite fun x _ => ?_
    cases x
    · exact ihb fr s h1 h2
    · exact iha fr s h1 h2
  | loop body ih =>
    intro fr s h1 h2
    exact ens_loop (fun fr s => Clean s.lx ∧ Clean fr.saved) (fun fr s h => ih fr s h.1 h.2) ⟨h1, h2⟩

theorem clean_runFn {table : Fn → Func Fn} : ∀ (n : Nat) (f : Fn) (args : List V) (s : PS) (vs : List V) (s' : PS), Clean s.lx →
    runFn table n f args s = .ret vs s' → Clean s'.lx := by
  intro n
  induction n with
  | zero => intro f args s vs s' _ h; simp [runFn] at h
  | succ n ih =>
    intro f args s vs s' hs h
    refine ens_runFn (n := n) (R := fun _ s' => Clean s'.lx) ?_ h
    exact (clean_stmt ih _ _ s hs hs).mono (fun _ _ h => h.1) (fun _ _ h => h.1) (fun _ _ h => h.1) (fun _ _ h => h)

end Verif.Echo
