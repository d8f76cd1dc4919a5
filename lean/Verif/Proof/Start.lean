import Verif.Proof.AcceptDev
import Verif.Spec.Start
import Verif.Proof.Lengths
import Verif.Proof.Path
import Verif.Props.Schnorr
import Verif.Proof.Base58
import Verif.Props.Base58
import Verif.Props.Consent

/-! # Acceptance of the commands that start an operation -/

namespace Ergo
open Spec

/-! ## Path texts -/

theorem snput_isSome {n : Nat} {acc txt : List Char} (ht : txt ≠ []) :
    (acc.length + 1 < n → ∃ r, snput n acc txt = some r ∧
      r.length = min (acc.length + txt.length) (n - 1)) ∧
    (¬ acc.length + 1 < n → snput n acc txt = none) := by
  have hl := List.length_pos_iff.2 ht
  unfold snput
  simp only [List.length_take]
  constructor
  · intro h
    rw [if_neg (by omega)]
    exact ⟨_, rfl, by simp only [List.length_append, List.length_take]; omega⟩
  · intro h
    rw [if_pos (by omega)]

theorem hardenedBit_iff (c : UInt32) : (c &&& 0x80000000 ≠ 0) ↔ ¬ c.toNat < 2 ^ 31 := by
  have hc := compText_eq c
  unfold compText at hc
  by_cases hlt : c.toNat < 2 ^ 31
  · rw [if_pos hlt] at hc
    refine iff_of_false (fun hh => ?_) (by simpa using hlt)
    rw [if_pos hh] at hc
    have : '\'' ∈ Nat.toDigits 10 c.toNat := by rw [← hc]; simp
    have := Nat.isDigit_of_mem_toDigits (by omega) (by omega) this
    exact absurd this (by decide)
  · rw [if_neg hlt] at hc
    refine iff_of_true (fun hz => ?_) hlt
    rw [if_neg (by simp [hz])] at hc
    have : '\'' ∈ decimal (c &&& 0x7FFFFFFF).toNat := by
      rw [List.append_nil] at hc
      rw [hc]; simp
    have := Nat.isDigit_of_mem_toDigits (by omega) (by omega) this
    exact absurd this (by decide)

theorem pathFormatOne_last {n : Nat} {acc : List Char} {c : UInt32} :
    (pathFormatOne n acc c true).isSome ↔ acc.length + pathNeed [c] < n := by
  have hc := compText_eq c
  have hd := decimal_ne_nil (c &&& 0x7FFFFFFF).toNat
  obtain ⟨s1, s2⟩ := snput_isSome (n := n) (acc := acc) hd
  unfold pathFormatOne pathNeed
  by_cases h1 : acc.length + 1 < n
  · obtain ⟨r, hr, hl⟩ := s1 h1
    rw [hr]
    simp only [if_true]
    by_cases hh : c &&& 0x80000000 ≠ 0
    · rw [if_pos hh] at hc ⊢
      rw [if_neg ((hardenedBit_iff c).1 hh)]
      have hlen := congrArg List.length hc
      simp only [List.length_append, List.length_cons, List.length_nil] at hlen
      obtain ⟨t1, t2⟩ := snput_isSome (n := n) (acc := r) (txt := ['\'']) (by simp)
      have := List.length_pos_iff.2 hd
      by_cases h2 : r.length + 1 < n
      · obtain ⟨q, hq, _⟩ := t1 h2
        rw [hq]
        simp only [Option.isSome_some, true_iff]
        clear s1 s2 t1 t2
        omega
      · rw [t2 h2]
        simp only [Option.isSome_none, Bool.false_eq_true, false_iff]
        clear s1 s2 t1 t2
        omega
    · rw [if_neg hh]
      rw [if_pos (by by_contra hn; exact hh ((hardenedBit_iff c).2 hn))]
      simp [h1]
  · rw [s2 h1]
    simp only [Option.isSome_none, Bool.false_eq_true, false_iff]
    split
    · omega
    · have := congrArg List.length hc
      have h3 := List.length_pos_iff.2 hd
      simp only [List.length_append] at this
      omega

theorem pathFormatOne_more {n : Nat} {acc : List Char} {c : UInt32}
    (h : ¬ acc.length + (compText c).length + 1 < n) : pathFormatOne n acc c false = none := by
  have hc := compText_eq c
  have hlen := congrArg List.length hc
  rw [List.length_append] at hlen
  have hd := decimal_ne_nil (c &&& 0x7FFFFFFF).toNat
  obtain ⟨s1, s2⟩ := snput_isSome (n := n) (acc := acc) hd
  unfold pathFormatOne
  by_cases h1 : acc.length + 1 < n
  · obtain ⟨r, hr, hl⟩ := s1 h1
    rw [hr]
    simp only
    have hslash : ∀ r : List Char, ¬ r.length + 1 < n → snput n r ['/'] = none :=
      fun r => (snput_isSome (n := n) (acc := r) (txt := ['/']) (by simp)).2
    by_cases hh : c &&& 0x80000000 ≠ 0
    · rw [if_pos hh] at hlen ⊢
      simp only [List.length_cons, List.length_nil] at hlen
      obtain ⟨t1, t2⟩ := snput_isSome (n := n) (acc := r) (txt := ['\'']) (by simp)
      by_cases h2 : r.length + 1 < n
      · obtain ⟨q, hq, hl2⟩ := t1 h2
        rw [hq]
        simp only [List.length_cons, List.length_nil] at hl2
        simp only [Bool.false_eq_true, if_false]
        exact hslash q (by clear s1 s2 t1 t2; omega)
      · rw [t2 h2]
    · rw [if_neg hh] at hlen ⊢
      simp only [List.length_nil] at hlen
      simp only [Bool.false_eq_true, if_false]
      exact hslash r (by clear s1 s2; omega)
  · rw [s2 h1]

theorem pathFormatLoop_iff {n : Nat} : ∀ (p : List UInt32) (acc : List Char), p ≠ [] →
    ((pathFormatLoop n acc p).isSome ↔ acc.length + pathNeed p < n)
  | [], _, h => absurd rfl h
  | [c], acc, _ => by
    rw [← pathFormatOne_last]
    simp only [pathFormatLoop, List.isEmpty_nil]
    cases pathFormatOne n acc c true <;> simp
  | c :: d :: cs, acc, _ => by
    simp only [pathFormatLoop, List.isEmpty_cons, pathNeed]
    by_cases h : acc.length + (compText c).length + 1 < n
    · rw [pathFormatOne_fits (by simpa using h)]
      simp only [Bool.false_eq_true, if_false]
      have := pathFormatLoop_iff (n := n) (d :: cs) (acc ++ compText c ++ ['/']) (by simp)
      simp only [pathFormatLoop] at this
      rw [this]
      simp only [List.length_append, List.length_cons, List.length_nil]
      omega
    · rw [pathFormatOne_more h]
      simp only [Option.isSome_none, Bool.false_eq_true, false_iff]
      omega

/-- Exactly which paths can be shown. -/
theorem pathFormat_iff (p : List UInt32) (n : Nat) :
    (pathFormat p n).isSome ↔ p ≠ [] ∧ p.length ≤ 10 ∧ pathNeed p < n := by
  unfold pathFormat
  by_cases h : p.length = 0 ∨ p.length > 10
  · rw [if_pos h]
    simp only [Option.isSome_none, Bool.false_eq_true, false_iff]
    rintro ⟨h1, h2, _⟩
    have := List.length_pos_iff.2 h1
    omega
  · rw [if_neg h]
    have hne : p ≠ [] := by rintro rfl; simp at h
    rw [pathFormatLoop_iff p [] hne]
    simp only [List.length_nil, Nat.zero_add]
    have := List.length_pos_iff.2 hne
    exact ⟨fun h' => ⟨hne, by omega, h'⟩, fun h' => h'.2.2⟩

/-! ## Reading the data -/

theorem parse_pathToken (d : Bytes) (b : Bool) :
    (d.length = pathLen d + (if b then 4 else 0) ∧ 1 ≤ field d 0 1 ∧ field d 0 1 ≤ 10) ∧
      (pathOf d).length ≤ 10 ∧ (∃ token, parsePathToken d b = .ok (pathOf d, token)) ∨
    ¬ (d.length = pathLen d + (if b then 4 else 0) ∧ 1 ≤ field d 0 1 ∧ field d 0 1 ≤ 10) ∧
      ∃ e, e ≠ 0x9000 ∧ parsePathToken d b = .error e := by
  rw [parsePathToken_eq]
  rcases readPath_cases d with ⟨h0, h1⟩ | ⟨h0, p, h1⟩
  · right
    simp only [h1]
    exact ⟨by split <;> omega, _, by decide, rfl⟩
  · obtain ⟨hp, hp10⟩ := readPath_some h1
    simp only [h1]
    rcases token_cases b (d.drop (pathLen d)) with ⟨h3, h2⟩ | ⟨h3, v, h2⟩
    · right
      simp only [h2]
      refine ⟨?_, _, by decide, rfl⟩
      simp only [List.length_drop] at h3
      omega
    · simp only [h2]
      simp only [List.length_drop] at h3
      by_cases h4 : (d.drop (pathLen d)).drop (if b then 4 else 0) = []
      · left
        have := congrArg List.length h4
        simp only [List.length_drop, List.length_nil] at this
        refine ⟨⟨by omega, h0.2⟩, by rw [hp]; exact hp10, v, ?_⟩
        rw [if_neg (by simpa using h4), hp]
      · right
        refine ⟨?_, Sw.tooMuchData, by decide, by rw [if_pos h4]⟩
        rintro ⟨h5, _⟩
        apply h4
        rw [← List.length_eq_zero_iff]
        simp only [List.length_drop]
        omega

theorem parse_signInit (d : Bytes) (b : Bool) :
    (d.length = 1 + pathLen (d.drop 1) + (if b then 4 else 0) ∧ 1 ≤ field d 1 1 ∧ field d 1 1 ≤ 10) ∧
      (pathOf (d.drop 1)).length ≤ 10 ∧
      (∃ token, parseSignInit d b = .ok (d.headD 0, pathOf (d.drop 1), token)) ∨
    ¬ (d.length = 1 + pathLen (d.drop 1) + (if b then 4 else 0) ∧ 1 ≤ field d 1 1 ∧ field d 1 1 ≤ 10) ∧
      ∃ e, e ≠ 0x9000 ∧ parseSignInit d b = .error e := by
  have hf : field (d.drop 1) 0 1 = field d 1 1 := by simp [field]
  cases hp : parseSignInit d b with
  | error e =>
    right
    have he : e ≠ 0x9000 := by
      unfold parseSignInit at hp
      split at hp
      · cases hp; decide
      split at hp
      · cases hp; decide
      split at hp
      · cases hp; decide
      split at hp
      · cases hp; decide
      · cases hp
    refine ⟨?_, e, he, rfl⟩
    rintro ⟨h1, h2⟩
    unfold parseSignInit at hp
    rcases bufU8_cases d with ⟨hl, h0⟩ | ⟨hl, n, h0⟩
    · unfold pathLen at h1; omega
    simp only [h0] at hp
    rcases readPath_cases (d.drop 1) with ⟨h3, h4⟩ | ⟨h3, p, h4⟩
    · simp only [List.length_drop, hf] at h3; omega
    · simp only [h4] at hp
      rcases token_cases b ((d.drop 1).drop (pathLen (d.drop 1))) with ⟨h5, h6⟩ | ⟨h5, v, h6⟩
      · simp only [List.length_drop] at h5; omega
      · simp only [h6] at hp
        rw [if_neg] at hp
        · cases hp
        · rw [not_not, ← List.length_eq_zero_iff]
          simp only [List.length_drop]
          omega
  | ok q =>
    left
    obtain ⟨network, path, token⟩ := q
    have hl := parseSignInit_len hp
    obtain ⟨e1, e2, e3⟩ := parseSignInit_some hp
    have hcnt : 1 ≤ field d 1 1 ∧ field d 1 1 ≤ 10 ∧ path.length ≤ 10 := by
      unfold parseSignInit at hp
      rcases bufU8_cases d with ⟨_, h0⟩ | ⟨_, n, h0⟩
      · simp only [h0] at hp; cases hp
      simp only [h0] at hp
      rcases readPath_cases (d.drop 1) with ⟨h3, h4⟩ | ⟨h3, p, h4⟩
      · simp only [h4] at hp; cases hp
      · rw [hf] at h3
        obtain ⟨g1, g2⟩ := readPath_some h4
        refine ⟨h3.2.1, h3.2.2, ?_⟩
        rw [← e2, g1]
        exact g2
    exact ⟨⟨hl, hcnt.1, hcnt.2.1⟩, by rw [e2]; exact hcnt.2.2, token, by rw [e1, e2]⟩

/-! ## Replies -/

/-- The four kinds of replies to a start command and when they are given. -/
def StartReply (env : Env) (a : Request) (app : UInt32) (r : Reply) : Prop :=
  (∃ out, r = .sw 0x9000 out) ∧ a.Good env ∧ a.IdDrawn ∧ a.AtOnce app ∨
  r = .wait ∧ a.Good env ∧ a.IdDrawn ∧ ¬ a.AtOnce app ∧ a.Showable ∨
  r = .hang ∧ a.Good env ∧ ¬ a.IdDrawn ∨
  IsError r ∧ (¬ a.Good env ∨ a.IdDrawn ∧ ¬ a.AtOnce app ∧ ¬ a.Showable)

theorem isKnown_saved (saved app : UInt32) : isKnown saved app = true ↔ saved ≠ 0 ∧ saved = app := by
  unfold isKnown
  simp only [decide_eq_true_eq]
  constructor
  · rintro ⟨h1, _, h3⟩; exact ⟨h1, h3.symm⟩
  · rintro ⟨h2, h3⟩; exact ⟨h2, by rw [← h3]; exact h2, h3.symm⟩

theorem isKnown_app (saved app : UInt32) : isKnown saved app = true ↔ app ≠ 0 ∧ app = saved := by
  unfold isKnown
  simp only [decide_eq_true_eq]
  constructor
  · rintro ⟨_, h2, h3⟩; exact ⟨h2, h3⟩
  · rintro ⟨h2, h3⟩; exact ⟨by rw [← h3]; exact h2, h2, h3⟩

theorem abort_isError {d : Device} {e : UInt16} (he : e ≠ 0x9000) : IsError (d.abort e).2 :=
  ⟨e, he, rfl⟩

theorem account_ne_nil {p : List UInt32} (h : IsAccountPath p) : p ≠ [] := by
  rintro rfl
  simp [IsAccountPath] at h

theorem address_ne_nil {p : List UInt32} (h : IsAddressPath p) : p ≠ [] := by
  rintro rfl
  simp [IsAddressPath] at h

theorem pathFormat_none {p : List UInt32} (h : p ≠ []) (h2 : p.length ≤ 10)
    (hn : pathFormat p bip32StrLen = none) : ¬ pathNeed p < 60 := by
  intro h3
  have := (pathFormat_iff p bip32StrLen).2 ⟨h, h2, h3⟩
  rw [hn] at this
  cases this

theorem pathFormat_need {p : List UInt32} {t : List Char} (hn : pathFormat p bip32StrLen = some t) :
    pathNeed p < 60 := by
  have := (pathFormat_iff p bip32StrLen).1 (by rw [hn]; rfl)
  exact this.2.2

theorem reply_epk {env : Env} {d : Device} (hb : d.busy = false) (a : Request) (hi : a.ins = 0x10) :
    StartReply env a d.connectedApp (d.extPubKey env a.data (a.p1 = 2)).2 := by
  have hgood : a.Good env ↔ (a.data.length = pathLen a.data + (if a.p1 = 2 then 4 else 0) ∧
      1 ≤ field a.data 0 1 ∧ field a.data 0 1 ≤ 10) ∧ IsAccountPath (pathOf a.data) ∧
      (env.genPublic (pathOf a.data)).isSome := by
    unfold Request.Good wantedLen pathCount Request.path
    rw [if_pos hi, if_pos hi, if_pos hi, if_pos hi, if_neg (show ¬ a.ins = 0x20 by rw [hi]; decide),
      Option.some.injEq, eq_comm, and_assoc, and_assoc, and_assoc]
  have hid : a.IdDrawn := by
    intro h
    rw [hi] at h
    rcases h with h | h <;> exact absurd h (by decide)
  have hsh : a.Showable ↔ pathNeed (pathOf a.data) < 60 := by
    unfold Request.Showable Request.path
    rw [if_pos hi, hi, or_iff_right (by decide)]
  have hat : a.AtOnce d.connectedApp ↔ a.token ≠ 0 ∧ a.token = d.connectedApp := by
    unfold Request.AtOnce
    rw [hi]
    simp
  unfold StartReply
  rw [hgood, hsh, hat]
  unfold Device.extPubKey
  rw [hb]
  simp only [Bool.false_eq_true, if_false]
  rcases parse_pathToken a.data (a.p1 = 2) with ⟨h1, h2, token, h3⟩ | ⟨h1, e, h2, h3⟩
  · have ht := token_of_epk hi h3
    subst ht
    simp only [decide_eq_true_eq] at h1
    simp only [h3]
    by_cases hv : pathValidate (pathOf a.data) .accountGe3
    · have hac := (validate_account _).1 hv
      rw [if_neg (by simpa using hv)]
      cases hg : env.genPublic (pathOf a.data) with
      | none =>
        right; right; right
        exact ⟨abort_isError (by decide), .inl (by simp)⟩
      | some q =>
        have hk := isKnown_saved a.token d.connectedApp
        simp only
        by_cases hkn : isKnown a.token d.connectedApp = true
        · left
          refine ⟨?_, ⟨h1, hac, rfl⟩, hid, hk.1 hkn⟩
          rw [show (d.setCommand .extPubKey).connectedApp = d.connectedApp from rfl, if_pos hkn]
          exact ⟨_, rfl⟩
        · rw [show (d.setCommand .extPubKey).connectedApp = d.connectedApp from rfl, if_neg hkn]
          have hk2 := mt hk.2 hkn
          cases hf : pathFormat (pathOf a.data) bip32StrLen with
          | none =>
            right; right; right
            exact ⟨abort_isError (by decide), .inr ⟨hid, hk2, pathFormat_none (account_ne_nil hac) h2 hf⟩⟩
          | some t =>
            right; left
            exact ⟨rfl, ⟨h1, hac, rfl⟩, hid, hk2, pathFormat_need hf⟩
    · rw [if_pos hv]
      right; right; right
      exact ⟨abort_isError (by decide), .inl fun hh => hv ((validate_account _).2 hh.2.1)⟩
  · simp only [h3]
    right; right; right
    refine ⟨abort_isError h2, .inl fun hh => h1 ?_⟩
    simpa using hh.1

theorem showAddress_reply {env : Env} (hwf : env.WF) {d : Device} {send : Bool} {token : UInt32}
    {path : List UInt32} {raw pub : Bytes} {n : UInt8} (hp : IsAddressPath path)
    (hl : path.length ≤ 10) (hr : addressFromPubkey env n pub = some raw) :
    (d.showAddress send token path raw).2 = .wait ∧ pathNeed path < 60 ∨
    IsError (d.showAddress send token path raw).2 ∧ ¬ pathNeed path < 60 := by
  have hraw : raw.length ≤ 38 := by
    unfold addressFromPubkey at hr
    split at hr
    · cases hr
      have := hwf.blake_len ((1 + n) :: compress pub)
      simp only [withChecksum, compress, List.length_append, List.length_cons, List.length_take,
        List.length_drop] at this ⊢
      omega
    · cases hr
  unfold Device.showAddress
  rw [if_neg (by simpa using (validate_address _).2 hp)]
  cases hf : pathFormat path bip32StrLen with
  | none => exact .inr ⟨abort_isError (by decide), pathFormat_none (address_ne_nil hp) hl hf⟩
  | some t =>
    left
    refine ⟨?_, pathFormat_need hf⟩
    cases send with
    | true => rfl
    | false =>
      obtain ⟨x, hx, _, hx2⟩ := C37_address_fits raw addressStrLen hraw (by decide)
      simp only [Bool.false_eq_true, if_false, hx]
      rw [if_neg (by unfold addressStrLen; omega)]

theorem reply_address {env : Env} (hwf : env.WF) {d : Device} (hb : d.busy = false) (a : Request)
    (hi : a.ins = 0x11) (hp1 : a.p1 = 1 ∨ a.p1 = 2) :
    StartReply env a d.connectedApp (d.deriveAddress env a.data (a.p1 = 2) (a.p2 = 2)).2 := by
  have hf : field (a.data.drop 1) 0 1 = field a.data 1 1 := by simp [field]
  have hgood : a.Good env ↔ (a.data.length = 1 + pathLen (a.data.drop 1) + (if a.p2 = 2 then 4 else 0) ∧
      1 ≤ field a.data 1 1 ∧ field a.data 1 1 ≤ 10) ∧ IsAddressPath (pathOf (a.data.drop 1)) ∧
      a.data.headD 0 ≤ 252 ∧ (env.genPublic (pathOf (a.data.drop 1))).isSome := by
    unfold Request.Good wantedLen pathCount Request.path
    have h10 : ¬ a.ins = 0x10 := by rw [hi]; decide
    rw [if_neg h10, if_neg h10, if_neg h10, if_neg h10, if_neg (show ¬ a.ins = 0x20 by rw [hi]; decide),
      if_pos hi, if_pos hi, Option.some.injEq, eq_comm, and_assoc, and_assoc, and_assoc]
  have hid : a.IdDrawn := by
    intro h
    rw [hi] at h
    rcases h with h | h <;> exact absurd h (by decide)
  have hsh : a.Showable ↔ pathNeed (pathOf (a.data.drop 1)) < 60 := by
    unfold Request.Showable Request.path
    rw [if_neg (by rw [hi]; decide), hi, or_iff_right (by decide)]
  have hat : a.AtOnce d.connectedApp ↔ a.token ≠ 0 ∧ a.token = d.connectedApp ∧ a.p1 = 1 := by
    unfold Request.AtOnce
    rw [hi]
    simp
  unfold StartReply
  rw [hgood, hsh, hat]
  unfold Device.deriveAddress
  rw [hb]
  simp only [Bool.false_eq_true, if_false]
  cases hd : a.data with
  | nil =>
    right; right; right
    refine ⟨abort_isError (by decide), .inl fun hh => ?_⟩
    have := hh.1.1
    simp [pathLen] at this
    split at this <;> omega
  | cons n rest =>
    rw [hd] at hf
    simp only [bufU8, List.drop_succ_cons, List.drop_zero, List.headD_cons, List.length_cons] at hf ⊢
    rcases parse_pathToken rest (a.p2 = 2) with ⟨h1, h2, token, h3⟩ | ⟨h1, e, h2, h3⟩
    · have ht := token_of_da hi hd h3
      subst ht
      simp only [decide_eq_true_eq, hf] at h1
      have h1' : (rest.length + 1 = 1 + pathLen rest + (if a.p2 = 2 then 4 else 0) ∧
          1 ≤ field (n :: rest) 1 1 ∧ field (n :: rest) 1 1 ≤ 10) := ⟨by omega, h1.2⟩
      simp only [h3]
      by_cases hv : pathValidate (pathOf rest) .addressGe5
      · have hac := (validate_address _).1 hv
        rw [if_neg (by simpa using hv)]
        cases hg : env.genPublic (pathOf rest) with
        | none =>
          right; right; right
          exact ⟨abort_isError (by decide), .inl (by simp)⟩
        | some q =>
          simp only
          cases hr : addressFromPubkey env n q.1 with
          | none =>
            right; right; right
            refine ⟨⟨Sw.addressGenerationFailed, by decide, rfl⟩, .inl fun hh => ?_⟩
            unfold addressFromPubkey at hr
            rw [if_pos (by unfold networkValid; simpa using hh.2.2.1)] at hr
            cases hr
          | some raw =>
            have hn : n ≤ 252 := by
              unfold addressFromPubkey at hr
              split at hr
              · rename_i hh; unfold networkValid at hh; simpa using hh
              · cases hr
            have hk := isKnown_saved a.token d.connectedApp
            simp only
            rw [show (d.setCommand .deriveAddress).connectedApp = d.connectedApp from rfl]
            by_cases hkn : a.p1 = 1 ∧ isKnown a.token d.connectedApp = true
            · left
              refine ⟨?_, ⟨h1', hac, hn, rfl⟩, hid, (hk.1 hkn.2).1, (hk.1 hkn.2).2, hkn.1⟩
              rw [if_pos ⟨by rw [hkn.1]; decide, hkn.2⟩]
              exact ⟨_, rfl⟩
            · have hk2 : ¬ (a.token ≠ 0 ∧ a.token = d.connectedApp ∧ a.p1 = 1) :=
                fun hh => hkn ⟨hh.2.2, hk.2 ⟨hh.1, hh.2.1⟩⟩
              rw [if_neg (by
                rintro ⟨g1, g2⟩
                refine hkn ⟨?_, g2⟩
                rcases hp1 with g | g
                · exact g
                · simp [g] at g1)]
              rcases showAddress_reply hwf (d := d.setCommand .deriveAddress) (send := !decide (a.p1 = 2))
                (token := a.token) hac h2 hr with ⟨g1, g2⟩ | ⟨g1, g2⟩
              · right; left
                exact ⟨g1, ⟨h1', hac, hn, rfl⟩, hid, hk2, g2⟩
              · right; right; right
                exact ⟨g1, .inr ⟨hid, hk2, g2⟩⟩
      · rw [if_pos hv]
        right; right; right
        exact ⟨abort_isError (by decide), .inl fun hh => hv ((validate_address _).2 hh.2.1)⟩
    · simp only [h3]
      right; right; right
      refine ⟨abort_isError h2, .inl fun hh => h1 ?_⟩
      have := hh.1
      simp only [decide_eq_true_eq, hf]
      exact ⟨by omega, this.2⟩

theorem newSession_iff (l : List UInt8) :
    (∃ s, newSession 0 l = some s) ↔ ∃ i ∈ l, i ≠ 0 := by
  unfold newSession
  rw [← Option.isSome_iff_exists, List.find?_isSome]
  simp

theorem attestParse_fields {d : Bytes} {b : Bool} {i : AttestInit} (h : attestParse d b = .ok i) :
    field d 42 4 = i.treeSize.toNat ∧ field d 50 1 = i.tokens.toNat ∧
    field d 51 4 = i.regs.toNat := by
  obtain ⟨t, e, l, _⟩ := attestParse_some h
  have l1 := length_writeU16 i.index
  have l2 := length_writeU64 i.value
  have l3 := length_writeU32 i.treeSize
  have l4 := length_writeU32 i.height
  have l5 := length_writeU32 i.regs
  refine ⟨?_, ?_, ?_⟩
  · rw [field_of (pre := i.txId ++ writeU16be i.index ++ writeU64be i.value) (a := writeU32be i.treeSize) (post := writeU32be i.height ++ [i.tokens] ++ writeU32be i.regs ++ t)
      (by rw [e]; simp) (by simp [l, l1, l2]) (by simp [l3]), be_writeU32]
  · rw [field_of (pre := i.txId ++ writeU16be i.index ++ writeU64be i.value ++ writeU32be i.treeSize ++ writeU32be i.height) (a := [i.tokens]) (post := writeU32be i.regs ++ t)
      (by rw [e]; simp) (by simp [l, l1, l2, l3, l4]) (by simp), be_one]
  · rw [field_of (pre := i.txId ++ writeU16be i.index ++ writeU64be i.value ++ writeU32be i.treeSize ++ writeU32be i.height ++ [i.tokens]) (a := writeU32be i.regs) (post := t)
      (by rw [e]) (by simp [l, l1, l2, l3, l4]) (by simp [l5]), be_writeU32]

theorem attestParse_exact {d : Bytes} {b : Bool} (h : d.length = 55 + if b then 4 else 0) :
    ∃ i, attestParse d b = .ok i := by
  unfold attestParse
  rcases bufBytes_cases idLen d with ⟨g1, h1⟩ | ⟨g1, v1, h1⟩
  · simp only [List.length_drop, idLen] at *; omega
  simp only [h1]
  rcases bufU16_cases (d.drop idLen) with ⟨g2, h2⟩ | ⟨g2, v2, h2⟩
  · simp only [List.length_drop, idLen] at *; omega
  simp only [h2]
  rcases bufU64_cases ((d.drop idLen).drop 2) with ⟨g3, h3⟩ | ⟨g3, v3, h3⟩
  · simp only [List.length_drop, idLen] at *; omega
  simp only [h3]
  rcases bufU32_cases (((d.drop idLen).drop 2).drop 8) with ⟨g4, h4⟩ | ⟨g4, v4, h4⟩
  · simp only [List.length_drop, idLen] at *; omega
  simp only [h4]
  rcases bufU32_cases ((((d.drop idLen).drop 2).drop 8).drop 4) with ⟨g5, h5⟩ | ⟨g5, v5, h5⟩
  · simp only [List.length_drop, idLen] at *; omega
  simp only [h5]
  rcases bufU8_cases (((((d.drop idLen).drop 2).drop 8).drop 4).drop 4) with ⟨g6, h6⟩ | ⟨g6, v6, h6⟩
  · simp only [List.length_drop, idLen] at *; omega
  simp only [h6]
  rcases bufU32_cases ((((((d.drop idLen).drop 2).drop 8).drop 4).drop 4).drop 1) with
    ⟨g7, h7⟩ | ⟨g7, v7, h7⟩
  · simp only [List.length_drop, idLen] at *; omega
  simp only [h7]
  rcases token_cases b (((((((d.drop idLen).drop 2).drop 8).drop 4).drop 4).drop 1).drop 4) with
    ⟨g8, h8⟩ | ⟨g8, v8, h8⟩
  · simp only [List.length_drop, idLen] at *; omega
  simp only [h8]
  rw [if_neg]
  · exact ⟨_, rfl⟩
  · rw [not_not, ← List.length_eq_zero_iff]
    simp only [List.length_drop, idLen] at *
    omega

theorem attestInit_iff (d : Bytes) (b : Bool) (s : UInt8) :
    (∃ x, attestInit d b s = .ok x) ↔ d.length = 55 + (if b then 4 else 0) ∧
      field d 50 1 ≤ 20 ∧ field d 42 4 ≤ 32768 ∧ field d 51 4 ≤ 32768 := by
  constructor
  · rintro ⟨x, hx⟩
    obtain ⟨i, h1, -, -, -, -, -, -, h3⟩ := attestInit_ok hx
    obtain ⟨f1, f2, f3⟩ := attestParse_fields h1
    refine ⟨attestParse_len h1, ?_⟩
    rw [f1, f2, f3]
    unfold boxInit at h3
    by_cases g1 : i.tokens.toNat > tokenMax
    · rw [if_pos g1] at h3; simp at h3
    rw [if_neg g1] at h3
    by_cases g2 : i.treeSize.toNat > maxPart
    · rw [if_pos g2] at h3; simp at h3
    rw [if_neg g2] at h3
    by_cases g3 : i.regs.toNat > maxPart
    · rw [if_pos g3] at h3; simp at h3
    simp only [tokenMax, maxPart] at g1 g2 g3
    omega
  · rintro ⟨h1, h2, h3, h4⟩
    obtain ⟨i, hi⟩ := attestParse_exact h1
    obtain ⟨f1, f2, f3⟩ := attestParse_fields hi
    unfold attestInit
    simp only [hi]
    have : boxInit i.value i.treeSize i.height i.tokens i.regs [] =
        (⟨.initialized, i.value, i.treeSize, i.height, i.regs, i.tokens, .tree⟩,
          [] ++ gvePutU64 i.value, .ok) := by
      unfold boxInit
      rw [if_neg (by simp only [tokenMax]; omega), if_neg (by simp only [maxPart]; omega),
        if_neg (by simp only [maxPart]; omega)]
    rw [this]
    exact ⟨_, rfl⟩

theorem reply_attest {env : Env} {d : Device} (a : Request) (hi : a.ins = 0x20) (hp1 : a.p1 = 1) :
    StartReply env a d.connectedApp (d.attestStart a.data (a.p2 = 2) a.rnd).2 := by
  have hgood : a.Good env ↔ a.data.length = 55 + (if a.p2 = 2 then 4 else 0) ∧
      field a.data 50 1 ≤ 20 ∧ field a.data 42 4 ≤ 32768 ∧ field a.data 51 4 ≤ 32768 := by
    unfold Request.Good wantedLen
    rw [if_neg (by rw [hi]; decide), if_neg (by rw [hi]; decide), if_pos ⟨hi, hp1⟩, if_pos hi,
      Option.some.injEq, eq_comm]
  have hid : a.IdDrawn ↔ ∃ i ∈ a.rnd.u8s, i ≠ 0 := by
    unfold Request.IdDrawn
    rw [hi]
    simp
  have hsh : a.Showable := .inl hi
  have hat : a.AtOnce d.connectedApp ↔ a.token ≠ 0 ∧ a.token = d.connectedApp := by
    unfold Request.AtOnce
    rw [hi]
    simp
  unfold StartReply
  rw [hgood, hid, hat, ← newSession_iff]
  unfold Device.attestStart
  cases hx : attestInit a.data (a.p2 = 2) 0 with
  | error e =>
    right; right; right
    refine ⟨abort_isError (attestInit_err hx).1, .inl ?_⟩
    intro hg
    obtain ⟨x, hx2⟩ := (attestInit_iff a.data (a.p2 = 2) 0).2 (by simpa using hg)
    rw [hx2] at hx
    cases hx
  | ok x =>
    have ht := token_of_attest hi hx
    have hg := (attestInit_iff a.data (a.p2 = 2) 0).1 ⟨x, hx⟩
    simp only [decide_eq_true_eq] at hg
    simp only
    cases hs : newSession 0 a.rnd.u8s with
    | none =>
      right; right; left
      exact ⟨rfl, hg, by simp⟩
    | some s =>
      have hk := isKnown_app d.connectedApp x.token
      rw [show (d.setCommand .attestInput).connectedApp = d.connectedApp from rfl, ht]
      by_cases hkn : isKnown d.connectedApp x.token = true
      · left
        refine ⟨?_, hg, ⟨s, rfl⟩, hk.1 hkn⟩
        simp only [hkn, if_true]
        exact ⟨_, rfl⟩
      · right; left
        refine ⟨?_, hg, ⟨s, rfl⟩, mt hk.2 hkn, hsh⟩
        simp only [hkn]
        rfl

theorem scalarOk_iff (k : Bytes) : scalarOk k = true ↔ 0 < be k ∧ be k ≤ groupOrder := by
  unfold scalarOk
  rw [beNat_eq, secpN_eq]
  simp [Nat.pos_iff_ne_zero]

theorem schnorrTry_some (env : Env) (secret draw : Bytes) :
    (∃ q, schnorrTry env secret draw = some q) ↔ UsableScalar env secret ∧ UsableScalar env draw := by
  unfold schnorrTry UsableScalar
  rw [← and_assoc (a := 0 < be secret), ← scalarOk_iff, ← and_assoc (a := 0 < be draw),
    ← scalarOk_iff]
  by_cases h1 : scalarOk secret = true
  · rw [if_neg (by simpa using h1)]
    cases h2 : env.mulG secret with
    | none => simp
    | some pk =>
      by_cases h3 : scalarOk draw = true
      · simp only [h3, not_true, if_false]
        cases h4 : env.mulG draw <;> simp [h1]
      · simp [h3]
  · simp [h1]

theorem initLoop_iff (env : Env) (secret : Bytes) (draws : Nat → Bytes) (n i : Nat) :
    (∃ q, schnorrInitLoop env secret draws n i = some q) ↔
      UsableScalar env secret ∧ ∃ j, i ≤ j ∧ j < i + n ∧ UsableScalar env (draws j) := by
  induction n generalizing i with
  | zero =>
    simp only [schnorrInitLoop]
    constructor
    · rintro ⟨q, hq⟩; cases hq
    · rintro ⟨_, j, h1, h2, _⟩; omega
  | succ n ih =>
    unfold schnorrInitLoop
    have ht := schnorrTry_some env secret (draws i)
    cases h : schnorrTry env secret (draws i) with
    | some q =>
      obtain ⟨h1, h2⟩ := ht.1 ⟨q, h⟩
      exact ⟨fun _ => ⟨h1, i, le_refl _, by omega, h2⟩, fun _ => ⟨q, rfl⟩⟩
    | none =>
      simp only
      rw [ih]
      constructor
      · rintro ⟨h1, j, h2, h3, h4⟩
        exact ⟨h1, j, by omega, by omega, h4⟩
      · rintro ⟨h1, j, h2, h3, h4⟩
        refine ⟨h1, j, ?_, by omega, h4⟩
        rcases Nat.lt_or_ge i j with h5 | h5
        · exact h5
        · obtain rfl : i = j := by omega
          obtain ⟨q, hq⟩ := ht.2 ⟨h1, h4⟩
          rw [h] at hq
          cases hq

theorem p2pkInit_iff (env : Env) (path : List UInt32) (network : UInt8) (draws : Nat → Bytes) :
    (∃ p, p2pkInit env path network draws = .ok p) ∧ (IsAddressPath path ∧
      (network = 0 ∨ network = 16) ∧ ∃ secret, env.genPrivate path = some secret ∧
        UsableScalar env secret ∧ ∃ j < 100, UsableScalar env (draws j)) ∨
    (∃ e, e ≠ 0x9000 ∧ p2pkInit env path network draws = .err e) ∧ ¬ (IsAddressPath path ∧
      (network = 0 ∨ network = 16) ∧ ∃ secret, env.genPrivate path = some secret ∧
        UsableScalar env secret ∧ ∃ j < 100, UsableScalar env (draws j)) := by
  unfold p2pkInit
  by_cases h1 : pathValidate path .addressGe5 = true
  · rw [if_neg (by simpa using h1)]
    by_cases h2 : networkSupported network = true
    · rw [if_neg (by simpa using h2)]
      have h2' : network = 0 ∨ network = 16 := by
        unfold networkSupported networkMainnet at h2
        simpa using h2
      cases h3 : env.genPrivate path with
      | none =>
        right
        exact ⟨⟨_, by decide, rfl⟩, by simp⟩
      | some secret =>
        have hl := initLoop_iff env secret draws 100 0
        simp only [schnorrInit]
        cases h4 : schnorrInitLoop env secret draws 100 0 with
        | some q =>
          left
          obtain ⟨g1, j, -, g2, g3⟩ := hl.1 ⟨q, h4⟩
          exact ⟨⟨_, rfl⟩, (validate_address _).1 h1, h2', secret, rfl, g1, j, by omega, g3⟩
        | none =>
          right
          refine ⟨⟨_, by decide, rfl⟩, ?_⟩
          rintro ⟨-, -, s2, g0, g1, j, g2, g3⟩
          cases g0
          obtain ⟨q, hq⟩ := hl.2 ⟨g1, j, by omega, by omega, g3⟩
          rw [h4] at hq
          cases hq
    · rw [if_pos (by simpa using h2)]
      right
      refine ⟨⟨_, by decide, rfl⟩, fun hh => h2 ?_⟩
      unfold networkSupported networkMainnet
      simpa using hh.2.1
  · rw [if_pos (by simpa using h1)]
    right
    exact ⟨⟨_, by decide, rfl⟩, fun hh => h1 ((validate_address _).2 hh.1)⟩

theorem reply_sign {env : Env} {d : Device} (a : Request) (hi : a.ins = 0x21) (hp1 : a.p1 = 1) :
    StartReply env a d.connectedApp (d.signStart env a.data (a.p2 = 2) a.rnd).2 := by
  have hgood : a.Good env ↔ (a.data.length = 1 + pathLen (a.data.drop 1) + (if a.p2 = 2 then 4 else 0) ∧
      1 ≤ field a.data 1 1 ∧ field a.data 1 1 ≤ 10) ∧ IsAddressPath (pathOf (a.data.drop 1)) ∧
      (a.data.headD 0 = 0 ∨ a.data.headD 0 = 16) ∧
        ∃ secret, env.genPrivate (pathOf (a.data.drop 1)) = some secret ∧ UsableScalar env secret ∧
          ∃ j < 100, UsableScalar env (a.rnd.keys j) := by
    unfold Request.Good wantedLen pathCount Request.path
    have h10 : ¬ a.ins = 0x10 := by rw [hi]; decide
    have h11 : ¬ a.ins = 0x11 := by rw [hi]; decide
    have h20 : ¬ a.ins = 0x20 := by rw [hi]; decide
    rw [if_neg h10, if_neg h10, if_neg h10, if_neg h10, if_neg h11, if_neg h11, if_neg h20,
      if_neg (fun h => h20 h.1), if_neg (fun h => h20 h.1), if_pos ⟨hi, hp1⟩,
      Option.some.injEq, eq_comm, and_assoc, and_assoc, and_assoc]
  have hid : a.IdDrawn ↔ ∃ i ∈ a.rnd.u8s, i ≠ 0 := by
    unfold Request.IdDrawn
    rw [hi]
    simp
  have hsh : a.Showable ↔ pathNeed (pathOf (a.data.drop 1)) < 60 := by
    unfold Request.Showable Request.path
    rw [if_neg (by rw [hi]; decide), hi, or_iff_right (by decide)]
  have hat : ¬ a.AtOnce d.connectedApp := by
    unfold Request.AtOnce
    rw [hi]
    simp
  unfold StartReply
  rw [hgood, hsh, hid, ← newSession_iff]
  unfold Device.signStart
  rcases parse_signInit a.data (a.p2 = 2) with ⟨h1, h2, token, h3⟩ | ⟨h1, e, h2, h3⟩
  · simp only [decide_eq_true_eq] at h1
    simp only [h3]
    rcases p2pkInit_iff env (pathOf (a.data.drop 1)) (a.data.headD 0) a.rnd.keys with
      ⟨⟨p, g1⟩, g2⟩ | ⟨⟨e, g0, g1⟩, g2⟩
    · simp only [g1]
      cases hs : newSession 0 a.rnd.u8s with
      | none =>
        right; right; left
        exact ⟨rfl, ⟨h1, g2⟩, by simp⟩
      | some s =>
        simp only
        cases hf : pathFormat (pathOf (a.data.drop 1)) bip32StrLen with
        | none =>
          right; right; right
          exact ⟨abort_isError (by decide), .inr ⟨⟨s, rfl⟩, hat,
            pathFormat_none (address_ne_nil g2.1) h2 hf⟩⟩
        | some t =>
          right; left
          exact ⟨rfl, ⟨h1, g2⟩, ⟨s, rfl⟩, hat, pathFormat_need hf⟩
    · simp only [g1]
      right; right; right
      exact ⟨abort_isError g0, .inl fun hh => g2 hh.2⟩
  · simp only [h3]
    right; right; right
    refine ⟨abort_isError h2, .inl fun hh => h1 ?_⟩
    simpa using hh.1

/-! ## The device -/

theorem idle_notBusy {env : Env} {key : Bytes} {g : Ghost} {d : Device} (h : Inv env key g d)
    (ha : d.asks = none) : d.busy = false := by
  have := h.busy
  rwa [asks_none h ha] at this

theorem start_step {env : Env} {nanoS : Bool} {d : Device} (hb : d.busy = false) {a : Request}
    (hl : a.data.length ≤ 255) (hs : starts a.ins a.p1 a.p2 = true) :
    d.step env nanoS a.event =
      if a.ins = 0x10 then d.extPubKey env a.data (a.p1 = 2)
      else if a.ins = 0x11 then d.deriveAddress env a.data (a.p1 = 2) (a.p2 = 2)
      else if a.ins = 0x20 then d.attestStart a.data (a.p2 = 2) a.rnd
      else d.signStart env a.data (a.p2 = 2) a.rnd := by
  obtain ⟨ins, p1, p2, data, rnd⟩ := a
  simp only [Request.event, Device.step] at hl hs ⊢
  rw [if_neg (by omega)]
  unfold starts paramsOk at hs
  simp only [Bool.or_eq_true, Bool.and_eq_true, decide_eq_true_eq] at hs
  rcases hs with ⟨h1 | h1, h2⟩ | ⟨⟨h1 | h1, h2⟩, h3⟩
  · subst h1
    simp only [show ¬ ((0x10 : UInt8) = 0x01 ∨ (0x10 : UInt8) = 0x02) by decide, if_false, if_true,
      decide_eq_true_eq] at h2
    obtain ⟨rfl | rfl, rfl⟩ := h2 <;> rfl
  · subst h1
    simp only [show ¬ ((0x11 : UInt8) = 0x01 ∨ (0x11 : UInt8) = 0x02) by decide,
      show ¬ (0x11 : UInt8) = 0x10 by decide, if_false, if_true, decide_eq_true_eq] at h2
    obtain ⟨rfl | rfl, rfl | rfl⟩ := h2 <;> rfl
  · subst h1 h2
    rcases h3 with rfl | rfl
    all_goals
      show Device.attestInput env d _ _ _ _ = _
      unfold Device.attestInput
      rw [hb]
      rfl
  · subst h1 h2
    rcases h3 with rfl | rfl
    all_goals
      show Device.signTransaction env d _ _ _ _ = _
      unfold Device.signTransaction
      rw [hb]
      rfl

theorem start_reply {env : Env} {nanoS : Bool} (hwf : env.WF) {d : Device} (hb : d.busy = false)
    {a : Request} (hl : a.data.length ≤ 255) (hs : starts a.ins a.p1 a.p2 = true) :
    StartReply env a d.connectedApp (d.step env nanoS a.event).2 := by
  rw [start_step hb hl hs]
  unfold starts paramsOk at hs
  simp only [Bool.or_eq_true, Bool.and_eq_true, decide_eq_true_eq] at hs
  rcases hs with ⟨h1 | h1, h2⟩ | ⟨⟨h1 | h1, h2⟩, h3⟩
  · rw [if_pos h1]
    exact reply_epk hb a h1
  · rw [if_neg (by rw [h1]; decide), if_pos h1]
    refine reply_address hwf hb a h1 ?_
    rw [h1] at h2
    simp only [show ¬ ((0x11 : UInt8) = 0x01 ∨ (0x11 : UInt8) = 0x02) by decide,
      show ¬ (0x11 : UInt8) = 0x10 by decide, if_false, if_true, decide_eq_true_eq] at h2
    exact h2.1
  · rw [if_neg (by rw [h1]; decide), if_neg (by rw [h1]; decide), if_pos h1]
    exact reply_attest a h1 h2
  · rw [if_neg (by rw [h1]; decide), if_neg (by rw [h1]; decide), if_neg (by rw [h1]; decide)]
    exact reply_sign a h1 h2

end Ergo
