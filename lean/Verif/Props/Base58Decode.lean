import Verif.Proof.Base58Decode
import Verif.Spec.Base58Decode
import Verif.Props.Base58
import Verif.Props.Display
/-!
# C82: addresses can be read back from the display
-/
namespace Ergo
open Spec

/-- C82: the decoder accepts a text exactly if it is a base58 text of 2 to 164 characters whose bytes fit,
and gives exactly the bytes with this text. -/
theorem C82_decode (s : List Char) (n : Nat) (b : Bytes) :
    base58Decode s n = .ok b ↔ 2 ≤ s.length ∧ s.length ≤ 164 ∧ base58 b = s ∧ b.length ≤ n := by
  constructor
  · intro h
    by_cases hl : s.length > maxDecInput ∨ s.length < 2
    · unfold base58Decode at h; rw [if_pos hl] at h; simp at h
    · have hl' : 2 ≤ s.length ∧ s.length ≤ 164 := by unfold maxDecInput at hl; omega
      cases hs : b58Digits s with
      | none => unfold base58Decode at h; rw [if_neg hl, hs] at h; simp at h
      | some ds =>
        obtain ⟨c, c1, c2⟩ := base58Decode_digits s ds n hl'.1 hl'.2 hs
        rw [c2] at h
        split_ifs at h with hn
        cases h
        exact ⟨hl'.1, hl'.2, c1, hn⟩
  · rintro ⟨h1, h2, h3, h4⟩
    have hs : ∃ ds, b58Digits s = some ds := by
      refine ⟨List.replicate (leadingZeros b) 0 ++ (Nat.digits 58 (value256 b)).reverse, ?_⟩
      have : s = (List.replicate (leadingZeros b) 0 ++ (Nat.digits 58 (value256 b)).reverse).map
          (fun d => alphabet58.toList.getD d '?') := by
        rw [← h3, base58, List.map_append, List.map_replicate]
        have : alphabet58.toList.getD 0 '?' = '1' := by decide +kernel
        rw [this]
      rw [this, b58Digits_map]
      intro d hd
      rcases List.mem_append.1 hd with hd | hd
      · rw [(List.mem_replicate.1 hd).2]; omega
      · exact Nat.digits_lt_base (by omega) (List.mem_reverse.1 hd)
    obtain ⟨ds, hs⟩ := hs
    obtain ⟨c, c1, c2⟩ := base58Decode_digits s ds n h1 h2 hs
    have : c = b := base58_inj (c1.trans h3.symm)
    rw [c2, this, if_pos h4]

/-- C82: no text makes the decoder write or read outside its arrays. -/
theorem C82_defined (s : List Char) (n : Nat) : base58Decode s n ≠ .ub := by
  by_cases hl : s.length > maxDecInput ∨ s.length < 2
  · unfold base58Decode; rw [if_pos hl]; simp
  · have hl' : 2 ≤ s.length ∧ s.length ≤ 164 := by unfold maxDecInput at hl; omega
    cases hs : b58Digits s with
    | none => unfold base58Decode; rw [if_neg hl, hs]; simp
    | some ds =>
      obtain ⟨c, _, c2⟩ := base58Decode_digits s ds n hl'.1 hl'.2 hs
      rw [c2]; split_ifs <;> simp

/-- A text with a letter that is not used, one of a single character, one that does not fit. -/
example : base58Decode "11LZL".toList 5 = .ok [0, 0, 1, 0, 255] ∧
    base58Decode "11LZL".toList 4 = .fail ∧ base58Decode "11LZl".toList 5 = .fail ∧
    base58Decode "1".toList 5 = .fail ∧ base58Encode [0] 5 = some "1".toList := by decide +kernel

theorem base58_length_ge (b : Bytes) : b.length ≤ (base58 b).length := by
  have h1 : (base58 b).length = leadingZeros b + (Nat.digits 58 (value256 b)).length := by
    simp [base58]
  have hle := leadingZeros_le b
  rcases hb : b.drop (leadingZeros b) with _ | ⟨x, xs⟩
  · have := congrArg List.length hb
    rw [List.length_drop] at this
    simp only [List.length_nil] at this; omega
  · have hx : x ≠ 0 := by
      intro e
      have := leadingZeros_drop b
      rw [hb, leadingZeros, if_pos e] at this
      omega
    have hv := value256_ge x xs hx
    rw [← hb, value_drop] at hv
    have hl : b.length - leadingZeros b = xs.length + 1 := by
      rw [← List.length_drop, hb]; rfl
    have h58 : 58 ^ xs.length ≤ value256 b :=
      le_trans (Nat.pow_le_pow_left (by omega) _) hv
    have : xs.length < (Nat.digits 58 (value256 b)).length := (Nat.lt_digits_length_iff (by omega) _).2 h58
    omega

theorem base58_length_164 (b : Bytes) (h : b.length ≤ 120) : (base58 b).length ≤ 164 := by
  have h1 : (base58 b).length = leadingZeros b + (Nat.digits 58 (value256 b)).length := by
    simp [base58]
  have hle := leadingZeros_le b
  have h2 : (Nat.digits 58 (value256 b)).length ≤ 164 - leadingZeros b := by
    rw [Nat.digits_length_le_iff (by omega)]
    have hv := value256_lt (b.drop (leadingZeros b))
    rw [value_drop, List.length_drop] at hv
    refine lt_of_lt_of_le hv ?_
    generalize leadingZeros b = z at *
    have e1 : 256 ^ (b.length - z) ≤ 256 ^ (120 - z) := Nat.pow_le_pow_right (by omega) (by omega)
    refine le_trans e1 ?_
    have e2 : 256 ^ (120 - z) * 58 ^ z ≤ 58 ^ (164 - z) * 58 ^ z := by
      rw [← pow_add 58 (164 - z) z, show 164 - z + z = 164 by omega]
      calc 256 ^ (120 - z) * 58 ^ z ≤ 256 ^ (120 - z) * 256 ^ z :=
            Nat.mul_le_mul_left _ (Nat.pow_le_pow_left (by omega) _)
        _ = 256 ^ 120 := by rw [← pow_add, show 120 - z + z = 120 by omega]
        _ ≤ 58 ^ 164 := by norm_num
    exact Nat.le_of_mul_le_mul_right e2 (by positivity)
  omega

/-- C82: whatever the encoder writes, the decoder reads back, provided the bytes are two at least. -/
theorem C82_roundtrip (b : Bytes) (m n : Nat) (t : List Char) (h : base58Encode b m = some t)
    (h2 : 2 ≤ b.length) : base58Decode t n = if b.length ≤ n then .ok b else .fail := by
  rw [base58Encode_eq] at h
  split_ifs at h with hc
  cases h
  have hge := base58_length_ge b
  have hle := base58_length_164 b hc.1
  by_cases hn : b.length ≤ n
  · rw [if_pos hn]; exact (C82_decode _ n b).2 ⟨by omega, hle, rfl, hn⟩
  · rw [if_neg hn]
    cases hd : base58Decode (base58 b) n with
    | fail => rfl
    | ub => exact absurd hd (C82_defined _ _)
    | ok c =>
      obtain ⟨_, _, g1, g2⟩ := (C82_decode _ n c).1 hd
      rw [base58_inj g1] at g2
      exact absurd g2 hn

/-- The bytes of an address are read back from its text. -/
theorem address_read {env : Env} (hwf : env.WF) {kind network : UInt8} {content : Bytes} {len : Nat}
    (hl : content.length = len) (h2 : len ≤ 33) :
    ∃ raw, base58Decode (base58 ((kind + network) :: content ++
      (env.blake ((kind + network) :: content)).take 4)) 38 = .ok raw ∧ raw.length = len + 5 ∧
      IsAddress env kind len raw := by
  have hlen : ((kind + network) :: content ++ (env.blake ((kind + network) :: content)).take 4).length =
      len + 5 := by
    rw [List.length_append, List.length_take, hwf.blake_len, List.length_cons, hl]; omega
  refine ⟨_, (C82_decode _ 38 _).2 ⟨?_, ?_, rfl, by omega⟩, hlen, network, content, hl, rfl⟩
  · have := base58_length_ge ((kind + network) :: content ++
      (env.blake ((kind + network) :: content)).take 4)
    omega
  · exact base58_length_164 _ (by omega)

theorem token_list_title {α : Type} {nanoS : Bool} {value : Nat → α → ShowRes} {L : List (Bytes × α)} {p : Page}
    (hv : ∀ n x, value n x = .page p → p.title = .tokenValue n)
    (h : .page p ∈ tokenListPages nanoS value L) : ∃ n, p.title = .token n ∨ p.title = .tokenValue n := by
  unfold tokenListPages at h
  obtain ⟨t, _, ht⟩ := List.mem_flatMap.1 h
  simp only [List.mem_cons, List.not_mem_nil, or_false, ShowRes.page.injEq] at ht
  rcases ht with rfl | ht
  · exact ⟨_, .inl rfl⟩
  · exact ⟨_, .inr (hv _ _ ht.symm)⟩

/-- The request that is asked about, if it has an address on the display. -/
theorem asked_address {env : Env} (hwf : env.WF) {nanoS : Bool} {key : Bytes} {tr : List Obs} {d : Device}
    (h : Runs env nanoS key tr d) {s : Screen} (hs : d.screen = some s) {a : Request}
    (ha : (know tr).pending = some a) (h21 : a.ins ≠ 0x21) (h20 : a.ins ≠ 0x20) (h10 : a.ins ≠ 0x10)
    (h2 : a.p1 = 2) : ∃ pub : Bytes, pub.length = 65 ∧
      (a.exports env).getD [] = p2pkAddress env (a.data.headD 0) pub := by
  have hins : a.ins = 0x11 := by
    obtain ⟨a', f0, p1, _, p3⟩ := h.inv.asking _ hs
    rw [ha] at p1
    cases p1
    cases hcb : s.cb <;> rw [hcb] at p3
    · exact absurd p3.1 h10
    · exact p3.1
    · exact absurd p3.1 h20
    · exact absurd p3.1 h21
    · exact absurd p3.1 h21
    · exact absurd p3.1 h21
  obtain ⟨a', e1, e2, _⟩ := asked_pages h hs
  rw [ha] at e1
  cases e1
  have ht : a.title = .confirmAddress := by
    unfold Request.title
    rw [if_neg h10, if_pos hins, if_neg (by rw [h2]; decide)]
  rw [ht] at e2
  obtain ⟨a', raw, g1, _, _, _, g2, _⟩ := (C16_screen h).2.2.1 e2
  rw [ha] at g1
  cases g1
  rw [g2]
  unfold Request.exports at g2
  rw [if_neg h10] at g2
  obtain ⟨⟨pub, chain⟩, k1, k2⟩ := Option.map_eq_some_iff.1 g2
  exact ⟨pub, (genPublic_len hwf k1).1, k2.symm⟩

/-- C82: an address on the display, of a key or of a script, whichever question it belongs to, is read
back by the decoder, and gives kind and network, the content, and four bytes of hash. -/
theorem C82_display {env : Env} (hwf : env.WF) {nanoS : Bool} {key : Bytes} {tr : List Obs} {d : Device}
    (h : Runs env nanoS key tr d) {p : Page} (hp : d.page env nanoS = some p) :
    (p.title = .address → ∃ t raw, p.shown = .text t ∧ base58Decode t 38 = .ok raw ∧ raw.length = 38 ∧
      IsAddress env 1 33 raw) ∧
    (p.title = .scriptHash → ∃ t raw, p.shown = .text t ∧ base58Decode t 38 = .ok raw ∧ raw.length = 29 ∧
      IsAddress env 2 24 raw) := by
  have hd := C81_display hwf h
  rw [hp] at hd
  simp only [Option.map_some] at hd
  unfold display at hd
  obtain ⟨k, _, hk⟩ := Option.bind_eq_some_iff.1 hd.symm
  have hm := List.mem_of_getElem? hk
  have hs : ∃ s, d.screen = some s := by
    cases hs : d.screen with
    | none => simp [Device.page, hs] at hp
    | some s => exact ⟨s, rfl⟩
  obtain ⟨s, hs⟩ := hs
  obtain ⟨a, e1, e2, _⟩ := asked_pages h hs
  unfold Ghost.shownNow at hm
  rw [e1] at hm
  simp only [Option.map_some, Option.getD_some] at hm
  unfold Ghost.shown at hm
  have app : ∀ {q : Page} {l : List Page}, (∀ x ∈ l, x.title = .application) → q ∈ l →
      (q.title = .address ∨ q.title = .scriptHash) → False := by
    rintro q l hl hq (e | e) <;> rw [hl q hq] at e <;> cases e
  have notoken : ∀ q ∈ tokenPages a.token, q.title = .application := by
    intro q hq
    unfold tokenPages at hq
    split_ifs at hq
    · simp at hq
    · simp only [List.mem_singleton] at hq; rw [hq]
  have title : a.title ≠ .address ∧ a.title ≠ .scriptHash := by
    unfold Request.title; split_ifs <;> simp
  -- every page that is no address is none
  have none_of : p.title ≠ .address → p.title ≠ .scriptHash →
      (p.title = .address → ∃ t raw, p.shown = .text t ∧ base58Decode t 38 = .ok raw ∧ raw.length = 38 ∧
        IsAddress env 1 33 raw) ∧
      (p.title = .scriptHash → ∃ t raw, p.shown = .text t ∧ base58Decode t 38 = .ok raw ∧ raw.length = 29 ∧
        IsAddress env 2 24 raw) := fun n1 n2 => ⟨fun e => absurd e n1, fun e => absurd e n2⟩
  have tok : (∃ n, p.title = .token n ∨ p.title = .tokenValue n) →
      p.title ≠ .address ∧ p.title ≠ .scriptHash := by
    rintro ⟨n, e | e⟩ <;> rw [e] <;> simp
  split_ifs at hm with hb h20 h21 h20' h10 h2
  · -- transaction
    cases hS : (know tr).sign with
    | none => rw [hS] at hm; simp at hm
    | some S =>
      rw [hS] at hm
      simp only [if_pos h20, txShown, List.mem_cons, ShowRes.page.injEq] at hm
      rcases hm with rfl | rfl | rfl | rfl | hm
      · exact none_of title.1 title.2
      · exact none_of (by simp) (by simp)
      · exact none_of (by simp) (by simp)
      · exact none_of (by simp) (by simp)
      · obtain ⟨t1, t2⟩ := tok (token_list_title (value := balancePage) (by
          intro n x hx
          unfold balancePage at hx
          split_ifs at hx <;> (cases hx; rfl)) hm)
        exact none_of t1 t2
  · -- output
    cases hS : (know tr).sign with
    | none => rw [hS] at hm; simp at hm
    | some S =>
      rw [hS] at hm
      simp only [if_neg h20, List.mem_cons, ShowRes.page.injEq] at hm
      rcases hm with rfl | hm
      · exact none_of title.1 title.2
      · have rest : ∀ (o : OutDesc), .page p ∈ (.page ⟨.outputValue, .erg (UInt64.ofNat o.box.value)⟩ ::
            tokenListPages nanoS amountPage (outTokens (describe S.log) o) : List ShowRes) →
            p.title ≠ .address ∧ p.title ≠ .scriptHash := by
          intro o ho
          rcases List.mem_cons.1 ho with ho | ho
          · cases ho; simp
          · exact tok (token_list_title (value := amountPage) (by intro n x hx; cases hx; rfl) ho)
        unfold outputShown at hm
        split at hm
        · simp at hm
        · rename_i o _ _
          dsimp only at hm
          split at hm
          · simp only [List.mem_singleton] at hm
            split_ifs at hm
            cases hm
            exact none_of (by simp) (by simp)
          · rename_i b _
            rcases List.mem_cons.1 hm with hm | hm
            · cases hm
              unfold scriptPage
              split_ifs with k1 k2
              · obtain ⟨raw, r1, r2, r3⟩ := address_read hwf (kind := 1) (network := S.start.data.headD 0)
                  k1.2.1 (le_refl 33)
                exact ⟨fun _ => ⟨_, raw, rfl, r1, r2, r3⟩, fun e => by cases e⟩
              · obtain ⟨raw, r1, r2, r3⟩ := address_read hwf (kind := 2) (network := S.start.data.headD 0)
                  k2.2 (by omega)
                exact ⟨fun e => (by cases e), fun _ => ⟨_, raw, rfl, r1, r2, r3⟩⟩
              · obtain ⟨raw, r1, r2, r3⟩ := address_read hwf (kind := 2) (network := S.start.data.headD 0)
                  (content := (env.blake b).take 24) (len := 24)
                  (by rw [List.length_take, hwf.blake_len]; rfl) (by omega)
                exact ⟨fun e => (by cases e), fun _ => ⟨_, raw, rfl, r1, r2, r3⟩⟩
            · exact none_of (rest o hm).1 (rest o hm).2
          · rcases List.mem_cons.1 hm with hm | hm
            · cases hm; exact none_of (by simp) (by simp)
            · exact none_of (rest o hm).1 (rest o hm).2
          · simp at hm
  · simp only [List.map_cons, List.map_nil, List.mem_singleton, ShowRes.page.injEq] at hm
    subst hm
    exact none_of title.1 title.2
  · simp only [List.map_cons, List.map_nil, List.mem_cons, List.not_mem_nil, or_false,
      ShowRes.page.injEq] at hm
    rcases hm with rfl | rfl
    · exact none_of title.1 title.2
    · exact none_of (by simp) (by simp)
  all_goals
    obtain ⟨q, hq, e⟩ := List.mem_map.1 hm
    cases e
    rcases List.mem_append.1 hq with hq | hq
    case inr =>
      have := notoken _ hq
      exact none_of (by rw [this]; simp) (by rw [this]; simp)
    simp only [List.mem_cons, List.not_mem_nil, or_false] at hq
  · subst hq; exact none_of title.1 title.2
  · rcases hq with rfl | rfl
    · exact none_of title.1 title.2
    · exact none_of (by simp [pathPage]) (by simp [pathPage])
  · rcases hq with rfl | rfl | rfl
    · exact none_of title.1 title.2
    · exact none_of (by simp [pathPage]) (by simp [pathPage])
    · rename_i e3
      obtain ⟨pub, w1, w2⟩ := asked_address hwf h hs e1 h21 h10 h2 e3
      obtain ⟨raw, r1, r2, r3⟩ := address_read hwf (kind := 1) (network := a.data.headD 0)
        (compress_length w1) (le_refl 33)
      exact ⟨fun _ => ⟨_, raw, by rw [w2]; rfl, r1, r2, r3⟩, fun e => by cases e⟩
  · rcases hq with rfl | rfl
    · exact none_of title.1 title.2
    · exact none_of (by simp [pathPage]) (by simp [pathPage])

/-- The address of the key of a path, on the display. -/
example :
    let raw := (toyEnv.genPublic (pathOf (demoPath 1))).map (fun k => p2pkAddress toyEnv 0 k.1)
    ((after [cmd 0x11 2 1 (0 :: demoPath 1), .right, .right]).page toyEnv false).map
      (fun p => match p.title, p.shown with
        | .address, .text t => base58Decode t 38
        | _, _ => .fail) = raw.map .ok ∧ raw.map List.length = some 38 := by
  decide +kernel

/-- C82: an address read from the question about an output gives the script that is paid: of an address
of a key all of it, of an address of a script its hash. -/
theorem C82_paid {env : Env} (hwf : env.WF) {nanoS : Bool} {key : Bytes} {tr : List Obs} {d : Device}
    (h : Runs env nanoS key tr d) (hq : d.asks = some .confirmOutput) {p : Page}
    (hp : d.page env nanoS = some p) {t : List Char} (ht : p.shown = .text t) {raw : Bytes}
    (hr : base58Decode t 38 = .ok raw) :
    (p.title = .address → ∃ S o os, (know tr).sign = some S ∧ (describe S.log).outputs = o :: os ∧
      o.box.script = some (.raw ([0x00, 0x08, 0xcd] ++ (raw.drop 1).take 33))) ∧
    (p.title = .scriptHash → ∃ S o os b, (know tr).sign = some S ∧ (describe S.log).outputs = o :: os ∧
      o.box.script = some (.raw b) ∧
      (IsHashScript b ((raw.drop 1).take 24) ∨ (env.blake b).take 24 = (raw.drop 1).take 24)) := by
  have hd := C81_display hwf h
  rw [hp] at hd
  simp only [Option.map_some] at hd
  unfold display at hd
  obtain ⟨k, _, hk⟩ := Option.bind_eq_some_iff.1 hd.symm
  have hm := List.mem_of_getElem? hk
  have hs : ∃ s, d.screen = some s := by
    cases hs : d.screen with
    | none => simp [Device.page, hs] at hp
    | some s => exact ⟨s, rfl⟩
  obtain ⟨s, hs⟩ := hs
  obtain ⟨a, e1, e2, _⟩ := asked_pages h hs
  unfold Ghost.shownNow at hm
  rw [e1] at hm
  simp only [Option.map_some, Option.getD_some] at hm
  rw [hq] at e2
  have ha : a.ins = 0x21 ∧ a.p1 ≠ 1 ∧ a.p1 ≠ 0x20 := by
    have e3 := Option.some.inj e2
    unfold Request.title at e3
    obtain ⟨a', f0, p1, _, p3⟩ := h.inv.asking _ hs
    rw [e1] at p1
    cases p1
    split_ifs at e3 with i1 i2 i3 i4 i5 i6
    refine ⟨?_, i5, i6⟩
    cases hcb : s.cb <;> rw [hcb] at p3
    · exact absurd p3.1 i1
    · exact absurd p3.1 i2
    · exact absurd p3.1 i4
    · exact p3.1
    · exact p3.1
    · exact p3.1
  unfold Ghost.shown at hm
  rw [if_pos ⟨ha.1, ha.2.1⟩] at hm
  have tok : (∃ n, p.title = .token n ∨ p.title = .tokenValue n) →
      p.title ≠ .address ∧ p.title ≠ .scriptHash := by
    rintro ⟨n, e | e⟩ <;> rw [e] <;> simp
  -- bytes read are those of the page
  have read : ∀ {kind network : UInt8} {content : Bytes} {n : Nat}, content.length = n →
      p.shown = .text (addressText env kind network content) → (raw.drop 1).take n = content := by
    intro kind network content n hn hsh
    rw [ht] at hsh
    cases hsh
    have := base58_inj ((C82_decode _ _ _).1 hr).2.2.1
    rw [this, List.cons_append, List.drop_one, List.tail_cons, ← hn, List.take_left]
  suffices H : (p.title = .address ∨ p.title = .scriptHash) → ∃ S o os b, (know tr).sign = some S ∧
      (describe S.log).outputs = o :: os ∧ o.box.script = some (.raw b) ∧
      p = scriptPage env (S.start.data.headD 0) b by
    constructor
    · intro e
      obtain ⟨S, o, os, b, w1, w2, w3, w4⟩ := H (.inl e)
      refine ⟨S, o, os, w1, w2, ?_⟩
      unfold scriptPage at w4
      split_ifs at w4 with k1 k2
      · rw [w3, read (content := b.drop 3) k1.2.1 (by rw [w4])]
        exact congrArg (fun x => some (Script.raw x)) k1.1
      · rw [w4] at e; cases e
      · rw [w4] at e; cases e
    · intro e
      obtain ⟨S, o, os, b, w1, w2, w3, w4⟩ := H (.inr e)
      refine ⟨S, o, os, b, w1, w2, w3, ?_⟩
      unfold scriptPage at w4
      split_ifs at w4 with k1 k2
      · rw [w4] at e; cases e
      · rw [read k2.2 (by rw [w4])]; exact .inl k2
      · rw [read (content := (env.blake b).take 24) (by rw [List.length_take, hwf.blake_len]; rfl)
          (by rw [w4])]
        exact .inr rfl
  intro e
  cases hS : (know tr).sign with
  | none => rw [hS] at hm; simp at hm
  | some S =>
    rw [hS] at hm
    simp only [if_neg ha.2.2, List.mem_cons, ShowRes.page.injEq] at hm
    rcases hm with rfl | hm
    · rw [← Option.some.inj e2] at e; simp at e
    · have rest : ∀ (o : OutDesc), .page p ∈ (.page ⟨.outputValue, .erg (UInt64.ofNat o.box.value)⟩ ::
          tokenListPages nanoS amountPage (outTokens (describe S.log) o) : List ShowRes) →
          p.title ≠ .address ∧ p.title ≠ .scriptHash := by
        intro o ho
        rcases List.mem_cons.1 ho with ho | ho
        · cases ho; simp
        · exact tok (token_list_title (value := amountPage) (by intro n x hx; cases hx; rfl) ho)
      unfold outputShown at hm
      split at hm
      · simp at hm
      · rename_i o os ho
        dsimp only at hm
        split at hm
        · simp only [List.mem_singleton] at hm
          split_ifs at hm
          cases hm
          simp at e
        · rename_i b hb
          rcases List.mem_cons.1 hm with hm | hm
          · cases hm
            exact ⟨S, o, os, b, rfl, ho, hb, rfl⟩
          · rcases e with e | e
            · exact absurd e (rest o hm).1
            · exact absurd e (rest o hm).2
        · rcases List.mem_cons.1 hm with hm | hm
          · cases hm; simp at e
          · rcases e with e | e
            · exact absurd e (rest o hm).1
            · exact absurd e (rest o hm).2
        · simp at hm

/-- The first output of a transaction: script and address. -/
example :
    let d := after (demoOpen ++ demoTx.take 4 ++ [.right])
    let raw := match (d.page toyEnv false).map (fun p => (p.title, p.shown)) with
      | some (.address, .text t) => base58Decode t 38
      | _ => .fail
    ((know (seen (demoOpen ++ demoTx.take 4 ++ [.right]))).sign.bind (fun S =>
      (describe S.log).outputs.head?)).bind (fun o => o.box.script) =
      (match raw with
        | .ok r => some (.raw ([0x00, 0x08, 0xcd] ++ (r.drop 1).take 33))
        | _ => none) ∧ raw ≠ .fail := by
  decide +kernel

end Ergo
