import Verif.Lemmas.ReleaseNoHang
import Verif.Lemmas.ReleaseWire
import Verif.Lemmas.ReleasePrefix
import Verif.Lemmas.ReleaseBmp
import Verif.Lemmas.ReleaseUpdate
import Verif.Props.Prefix

/-! # C102-C104: the code built without overflow checks -/

namespace Zbgp.Props

open Zbgp Spec BgpSessionParams

/-! ## C102: the two builds agree wherever the checked one does not crash -/

private theorem same {α : Type} {x y : Res α} (h : BSim x y) (hx : x ≠ .panic) : y = x := h.resolve_left hx

/-- **C102**, decoders: whatever a build with overflow checks returns, value or error, a build without them returns too.
Header, NLRI of every family, attributes, UPDATE. -/
theorem C102_decoders_agree :
    (∀ b, decodeMessageHead b ≠ .panic → decodeMessageHeadIn .release b = decodeMessageHead b) ∧
    (∀ p afi safi b, BgpAddrs.decodeFrom p afi safi b ≠ .panic →
      BgpAddrs.decodeFromIn .release p afi safi b = BgpAddrs.decodeFrom p afi safi b) ∧
    (∀ p tc fl n b, BgpAttrItem.decodeFrom p tc fl n b ≠ .panic →
      BgpAttrItem.decodeFromIn .release p tc fl n b = BgpAttrItem.decodeFrom p tc fl n b) ∧
    (∀ (x : BgpUpdateMessage) p b, x.decodeFrom p b ≠ .panic → x.decodeFromIn .release p b = x.decodeFrom p b) :=
  ⟨fun b => same (bsim_head b), fun p afi safi b => same (bsim_addrsDec p afi safi b),
    fun p tc fl n b => same (bsim_attrDec p tc fl n b), fun x p b => same (bsim_updDec x p b)⟩

/-- **C102**, encoders and header writers: the buffer and the count are the same too. -/
theorem C102_encoders_agree :
    (∀ b ty n, prepareMessageBuf b ty n ≠ .panic → prepareMessageBufIn .release b ty n = prepareMessageBuf b ty n) ∧
    (∀ b ty n, sendMessageBuf b ty n ≠ .panic → sendMessageBufIn .release b ty n = sendMessageBuf b ty n) ∧
    (∀ (x : BgpAddrs) p b, x.encodeTo p b ≠ .panic → x.encodeToIn .release p b = x.encodeTo p b) ∧
    (∀ (x : BgpAttrItem) p b, x.encodeTo p b ≠ .panic → x.encodeToIn .release p b = x.encodeTo p b) ∧
    (∀ (x : BgpUpdateMessage) p b, x.encodeTo p b ≠ .panic → x.encodeToIn .release p b = x.encodeTo p b) :=
  ⟨fun b ty n => same (bsim_prepare b ty n), fun b ty n => same (bsim_send b ty n),
    fun x p b => same (bsim_addrsEnc x p b), fun x p b => same (bsim_attrEnc x p b),
    fun x p b => same (bsim_updEnc x p b)⟩

/-- **C102**, the containment functions of the three address families. -/
theorem C102_containment_agrees :
    (∀ s a : BgpAddrV4, s.contains a ≠ .panic → s.containsIn .release a = s.contains a) ∧
    (∀ (s : BgpAddrV4) a, s.inSubnet a ≠ .panic → s.inSubnetIn .release a = s.inSubnet a) ∧
    (∀ s : BgpAddrV4, s.rangeFirst ≠ .panic → s.rangeFirstIn .release = s.rangeFirst) ∧
    (∀ s : BgpAddrV4, s.rangeLast ≠ .panic → s.rangeLastIn .release = s.rangeLast) ∧
    (∀ s a : BgpAddrV6, s.contains a ≠ .panic → s.containsIn .release a = s.contains a) ∧
    (∀ (s : BgpAddrV6) a, s.inSubnet a ≠ .panic → s.inSubnetIn .release a = s.inSubnet a) ∧
    (∀ s : BgpAddrV6, s.rangeFirst ≠ .panic → s.rangeFirstIn .release = s.rangeFirst) ∧
    (∀ s : BgpAddrV6, s.rangeLast ≠ .panic → s.rangeLastIn .release = s.rangeLast) ∧
    (∀ s a : BgpAddrMac, s.contains a ≠ .panic → s.containsIn .release a = s.contains a) ∧
    (∀ (s : BgpAddrMac) a, s.inSubnet a ≠ .panic → s.inSubnetIn .release a = s.inSubnet a) ∧
    (∀ s : BgpAddrMac, s.rangeFirst ≠ .panic → s.rangeFirstIn .release = s.rangeFirst) ∧
    (∀ s : BgpAddrMac, s.rangeLast ≠ .panic → s.rangeLastIn .release = s.rangeLast) :=
  ⟨fun s a => same (bsim_containsV4 s a), fun s a => same (bsim_inSubnetV4 s a), fun s => same (bsim_rangeFirstV4 s),
    fun s => same (bsim_rangeLastV4 s), fun s a => same (bsim_containsV6 s a), fun s a => same (bsim_inSubnetV6 s a),
    fun s => same (bsim_rangeFirstV6 s), fun s => same (bsim_rangeLastV6 s), fun s a => same (bsim_containsMac s a),
    fun s a => same (bsim_inSubnetMac s a), fun s => same (bsim_rangeFirstMac s), fun s => same (bsim_rangeLastMac s)⟩

/-- **C102**, BMP: messages read alone and in a session, with the session table after the call, and messages written. -/
theorem C102_bmp_agrees :
    (∀ b, BmpMessage.decodeFrom b ≠ .panic → BmpMessage.decodeFromIn .release b = BmpMessage.decodeFrom b) ∧
    (∀ (s : BMPSession) b, (s.decodeFrom b).1 ≠ .panic → s.decodeFromIn .release b = s.decodeFrom b) ∧
    (∀ (x : BmpMessage) b, x.encodeTo b ≠ .panic → x.encodeToIn .release b = x.encodeTo b) :=
  ⟨fun b => same (bsim_bmpDec b), fun s b h => (bsim_session s b).resolve_left h, fun x b => same (bsim_bmpEnc x b)⟩

/-- **C102.** The functions written for both builds are, for the checked build, those of the rest of the model. -/
theorem C102_checked_is_the_model :
    decodeMessageHeadIn .checked = decodeMessageHead ∧
    prepareMessageBufIn .checked = prepareMessageBuf ∧
    sendMessageBufIn .checked = sendMessageBuf ∧
    (∀ p afi safi b, BgpAddrs.decodeFromIn .checked p afi safi b = BgpAddrs.decodeFrom p afi safi b) ∧
    (∀ (x : BgpAddrs) p b, x.encodeToIn .checked p b = x.encodeTo p b) ∧
    (∀ p, BgpAttrItem.decodeFromIn .checked p = BgpAttrItem.decodeFrom p) ∧
    (∀ (x : BgpAttrItem) p, x.encodeToIn .checked p = x.encodeTo p) ∧
    (∀ (x : BgpUpdateMessage) p b, x.decodeFromIn .checked p b = x.decodeFrom p b) ∧
    (∀ (x : BgpUpdateMessage) p b, x.encodeToIn .checked p b = x.encodeTo p b) ∧
    BgpAddrV4.containsIn .checked = BgpAddrV4.contains ∧
    BgpAddrV6.containsIn .checked = BgpAddrV6.contains ∧
    BgpAddrMac.containsIn .checked = BgpAddrMac.contains ∧
    BmpMessage.decodeFromIn .checked = BmpMessage.decodeFrom ∧
    BMPSession.decodeFromIn .checked = BMPSession.decodeFrom ∧
    BmpMessage.encodeToIn .checked = BmpMessage.encodeTo :=
  ⟨head_checked, prepare_checked, send_checked, addrsDec_checked, fun x p b => by rw [addrsEnc_checked], attrDec_checked,
    attrEnc_checked, updDec_checked, updEnc_checked, containsV4_checked, containsV6_checked, containsMac_checked, bmpDec_checked,
    session_checked, bmpEnc_checked⟩

/-- **C102.** The decoders end on every input without overflow checks, as they do with them. -/
theorem C102_decoders_end :
    (∀ p afi safi b, BgpAddrs.decodeFromIn .release p afi safi b ≠ .hang) ∧
    (∀ p tc fl n b, BgpAttrItem.decodeFromIn .release p tc fl n b ≠ .hang) ∧
    (∀ (x : BgpUpdateMessage) p b, x.decodeFromIn .release p b ≠ .hang) ∧
    (∀ b, BmpMessage.decodeFromIn .release b ≠ .hang) ∧
    (∀ (s : BMPSession) b, (s.decodeFromIn .release b).1 ≠ .hang) :=
  ⟨nhr_addrs, nhr_attr, nhr_update, nhr_bmp, nhr_session⟩

/-- a session over IPv4 without capabilities -/
private def rsession : BgpSessionParams :=
  { asNum := 65000, holdTime := 180, peerMode := .IPv4, hasAs32bit := true, routerId := 0x0a000001, fuzzyPathid := false, caps := [] }

/-- non-vacuity: an UPDATE that a build with checks reads, and NLRI that it refuses: the other build does the same -/
example : ∃ u, (⟨.None, .None, []⟩ : BgpUpdateMessage).decodeFrom rsession [0, 0, 0, 0, 24, 10, 1, 2] = .ok u ∧
    (⟨.None, .None, []⟩ : BgpUpdateMessage).decodeFromIn .release rsession [0, 0, 0, 0, 24, 10, 1, 2] = .ok u :=
  ⟨_, rfl, rfl⟩
example : (BgpAddrs.decodeFromIn .release rsession 1 1 [33, 1, 2, 3, 4, 5]).IsErr := by decide
/-- and the two differ where the one with checks crashes -/
example : BgpAddrs.decodeFrom rsession 1 1 [250, 1] = .panic ∧
    (BgpAddrs.decodeFromIn .release rsession 1 1 [250, 1]).IsErr := by decide

/-! ## C103: what is read and written where a checked build would crash -/

/-- **C103**, the header. A build without overflow checks accepts every length field `L` behind a correct marker and in
front of a known type, and reports `L - 19` modulo 65536 as length of the body; it never crashes. -/
theorem C103_header_read_exactly (buf : Bytes) :
    Exactly (decodeMessageHeadIn .release buf)
      (fun y => ∃ L t, L < 65536 ∧ buf = List.replicate 16 255 ++ (be 2 L ++ be 1 (typeCode y.1)) ++ t ∧
        y.2 = (L + 65517) % 65536) False := by
  refine .of_cases ?_ False.elim ?_
  · rintro ⟨ty, n⟩ ⟨L, t, -, rfl, hn⟩
    simp only at hn
    rw [hn]
    exact head_release ty L t
  · by_cases hl : buf.length < 19
    · right; right; unfold decodeMessageHeadIn; rw [if_pos hl]; trivial
    obtain ⟨m, t, rfl, hm, -⟩ := exists_split 16 (by omega : 16 ≤ buf.length)
    obtain ⟨p, q, rfl, hp, -⟩ := exists_split 3 (by simp at hl; omega : 3 ≤ t.length)
    match p, hp with
    | [x, y, z], _ =>
      by_cases hmk : m = List.replicate 16 255
      · by_cases hz : ∃ ty, z = BitVec.ofNat 8 (typeCode ty)
        · obtain ⟨ty, rfl⟩ := hz
          left
          obtain ⟨L, hL, e⟩ := exists_be 2 (l := [x, y]) (by simp)
          refine ⟨(ty, (L + 65517) % 65536), L, q, by simpa using hL, ?_, rfl⟩
          simp only [List.drop_succ_cons, List.drop_nil, List.append_nil] at e
          rw [hmk, ← e]
          simp
        · right; right
          unfold decodeMessageHeadIn
          rw [if_neg hl, rslice_append_zero _ _ _ hm.symm, Res.ok_bind]
          split
          · trivial
          · rw [idx_append_right (by omega), hm]
            simp only [List.cons_append, List.nil_append, idx_cons_zero, idx_cons_succ, Res.ok_bind, Nat.reduceSub]
            have : BgpMessageType.decodeFrom z = .err .static := by
              unfold BgpMessageType.decodeFrom
              split <;> first | rfl | skip
              all_goals
                rename_i h
                exfalso
                apply hz
              · exact ⟨.Open, BitVec.eq_of_toNat_eq h⟩
              · exact ⟨.Update, BitVec.eq_of_toNat_eq h⟩
              · exact ⟨.Notification, BitVec.eq_of_toNat_eq h⟩
              · exact ⟨.Keepalive, BitVec.eq_of_toNat_eq h⟩
            rw [this]
            trivial
      · right; right
        unfold decodeMessageHeadIn
        rw [if_neg hl, rslice_append_zero _ _ _ hm.symm, Res.ok_bind, if_pos]
        · trivial
        · by_contra hc
          apply hmk
          rw [List.any_eq_true] at hc
          apply List.ext_getElem
          · simpa using hm
          · intro i h1 h2
            by_contra hne
            rw [List.getElem_replicate] at hne
            exact hc ⟨_, List.getElem_mem h1, by simpa using hne⟩

/-- **C103**, the header writers, for a body of any size that fits the buffer. Without overflow checks the length field is
the length modulo 65536, and `send_message_buf` puts only that many octets on the wire: for bodies of 65517 octets or more
the message is cut off, maybe to nothing. -/
theorem C103_header_write_wraps (buf : Bytes) (ty : BgpMessageType) (len : Nat) (h : len + 19 ≤ buf.length) :
    prepareMessageBufIn .release buf ty len = .ok (header ty len ++ buf.drop 19, (len + 19) % 65536) ∧
    sendMessageBufIn .release buf ty len = .ok (header ty len ++ buf.drop 19,
      (header ty len ++ buf.drop 19).take ((len + 19) % 65536)) :=
  ⟨prepare_release buf ty len h, send_release buf ty len h⟩

/-- 65517 octets: nothing is sent, and no error is reported. A checked build crashes (`C03_header_write_wraps`). -/
theorem C103_large_message_lost (buf : Bytes) (ty : BgpMessageType) (h : 65536 ≤ buf.length) :
    ∃ b, sendMessageBufIn .release buf ty 65517 = .ok (b, []) := by
  refine ⟨header ty 65517 ++ buf.drop 19, ?_⟩
  rw [send_release buf ty 65517 (by omega)]
  simp

/-- non-vacuity: a header with length 0 announces 65517 octets -/
example : decodeMessageHeadIn .release (List.replicate 16 255 ++ [0, 0, 4]) = .ok (.Keepalive, 65517) := by decide

/-- **C103**, prefixes of every kind, with and without path identifiers: exactly what a build without overflow checks reads,
where it crashes and that it ends. The bits of labels and of the route distinguisher are taken off the length modulo 256
(`WrapReads`). -/
theorem C103_prefixes_read_exactly (T : Type) [BgpItemIn T] [WrapReads T] (h : WrapKind T) (b : Bytes) :
    Exactly (@decodeItems T (itemIn T .release) b) (fun y => ItemsRead 0 (@NlriRead T (wrapReads T)) b y.1 y.2)
      (ItemsCrash 0 (@NlriRead T (wrapReads T)) (@NlriCrash T (wrapReads T)) b) ∧
    Exactly (@decodePathIdItems T (itemIn T .release) b)
      (fun y => ItemsRead 4 (@PathIdRead T (wrapReads T)) b y.1 y.2)
      (ItemsCrash 4 (@PathIdRead T (wrapReads T)) (@PathIdCrash T (wrapReads T)) b) := by
  have := WrapExact.of_kind h
  exact ⟨wrapNlris_exactly b, wrapPathIds_exactly b⟩

/-- non-vacuity: VPNv6 with labels is one of the kinds -/
example : WrapKind (Labeled (WithRd BgpAddrV6)) := .labeled (.withRd .v6)

/-- **C103**, NLRI of every family: exactly what a build without overflow checks reads in a session, where it crashes and
that it ends. Families other than those of `Family` are refused. -/
theorem C103_collections_read_exactly (p : BgpSessionParams) :
    (∀ (f : Family) (b : Bytes),
      Exactly (BgpAddrs.decodeFromIn .release p (familyCode f).1 (familyCode f).2 b) (fun y => WrapAddrs p f b y.1 y.2)
        (WrapAddrsCrash p f b)) ∧
    ∀ (afi : U16) (safi : U8) (b : Bytes), (∀ f, familyCode f ≠ (afi, safi)) →
      (BgpAddrs.decodeFromIn .release p afi safi b).IsErr := by
  refine ⟨w_addrs_exactly p, fun afi safi b h => ?_⟩
  have hc : BgpAddrs.decodeFrom p afi safi b = .err .dynStr := addrs_unknown h
  rw [C102_decoders_agree.2.1 p afi safi b (by rw [hc]; simp), hc]
  trivial

/-- a VPLS route whose eleven labels fill 33 octets -/
private def elevenLabels : Bytes :=
  [0, 47, 0, 0, 0, 1, 0, 0, 0, 2, 0, 1, 0, 2, 0, 3] ++ (List.replicate 11 [0, 1, 0]).flatten
/-- non-vacuity: a build with checks crashes on it, one without reads all labels -/
example : BgpAddrs.decodeFrom rsession 25 65 elevenLabels = .panic ∧
    WrapAddrs rsession .l2Vpls elevenLabels (.L2VPLS [⟨⟨1, 2⟩, 1, 2, 3, ⟨List.replicate 11 16⟩⟩]) 49 := by
  exact ⟨by decide, (((C103_collections_read_exactly rsession).1 .l2Vpls elevenLabels).ok (_, 49)).1 rfl⟩
/-- and a VPN FlowSpec prefix with 32 bits: 224 bits are left without the route distinguisher -/
example : BgpAddrs.decodeFrom rsession 1 134 [14, 1, 32, 0, 0, 0, 1, 0, 0, 0, 2, 10, 0, 0, 0] = .panic ∧
    (BgpAddrs.decodeFromIn .release rsession 1 134 [14, 1, 32, 0, 0, 0, 1, 0, 0, 0, 2, 10, 0, 0, 0]).IsErr := by
  decide

/-- **C103**, attribute values and UPDATE messages: exactly what a build without overflow checks reads, where it crashes and
that it ends. -/
theorem C103_updates_read_exactly (p : BgpSessionParams) :
    (∀ (code flags : U8) (v : Bytes),
      Exactly (BgpAttrItem.decodeFromIn .release p code flags v.length v) (WrapValueRead p code flags v)
        (WrapValueCrash p code v)) ∧
    ∀ (self : BgpUpdateMessage) (buf : Bytes),
      Exactly (self.decodeFromIn .release p buf)
        (fun m => ∃ l, WrapUpdateRead p buf m.withdraws l m.updates ∧ m.attrs = self.attrs ++ l) (WrapUpdateCrash p buf) :=
  ⟨Rel.value_exactly p, fun self => Rel.update_exactly self p⟩

/-- an UPDATE that withdraws the VPLS route with eleven labels -/
private def elevenWithdrawn : Bytes := [0, 0, 0, 55, 128, 15, 52, 0, 25, 65] ++ elevenLabels
/-- non-vacuity: a build with checks crashes on it, one without reads it -/
example : (⟨.None, .None, []⟩ : BgpUpdateMessage).decodeFrom rsession elevenWithdrawn = .panic ∧
    WrapUpdateRead rsession elevenWithdrawn (.IPV4U [])
      [.MPWithdraws ⟨.L2VPLS [⟨⟨1, 2⟩, 1, 2, 3, ⟨List.replicate 11 16⟩⟩]⟩] (.IPV4U []) := by
  refine ⟨rfl, ?_⟩
  obtain ⟨l, h, e⟩ := (((C103_updates_read_exactly rsession).2 ⟨.None, .None, []⟩ elevenWithdrawn).ok
    ⟨.IPV4U [], .IPV4U [], [.MPWithdraws ⟨.L2VPLS [⟨⟨1, 2⟩, 1, 2, 3, ⟨List.replicate 11 16⟩⟩]⟩]⟩).1 rfl
  simp only [List.nil_append] at e
  subst e
  exact h

/-- **C103.** Unicast and multicast NLRI of IPv4 and IPv6 never crash a build without overflow checks, whatever the buffer
holds and whether path identifiers are used or not. -/
theorem C103_plain_nlri_return (p : BgpSessionParams) (afi : U16) (safi : U8) (b : Bytes)
    (ha : afi.toNat = 1 ∨ afi.toNat = 2) (hs : safi.toNat = 1 ∨ safi.toNat = 2) :
    (BgpAddrs.decodeFromIn .release p afi safi b).Returns := by
  have nc : ∀ (T : Type) [WrapReads T], (∀ n b, ¬ WrapReads.Crash T n b) →
      ∀ (lim : Nat) (b : Bytes), ¬ ItemsCrash 0 (@NlriRead T (wrapReads T)) (@NlriCrash T (wrapReads T)) b ∧
        ¬ ItemsCrash 4 (@PathIdRead T (wrapReads T)) (@PathIdCrash T (wrapReads T)) b := by
    intro T _ hT _ b
    constructor
    · intro h
      induction h with
      | here b hb hc =>
        rcases hc with rfl | ⟨bits, t, rfl, hc⟩
        · simp at hb
        · exact hT _ _ hc
      | later b x n hb hr _ ih => exact ih
    · intro h
      induction h with
      | here b hb hc =>
        rcases hc with hc | hc | ⟨bits, t, hd, hc⟩
        · omega
        · have := congrArg List.length hc
          simp at this; omega
        · exact hT _ _ hc
      | later b x n hb hr _ ih => exact ih
  have key : ∀ (T : Type) [BgpItemIn T] [WrapReads T] [WrapExact T], (∀ n b, ¬ WrapReads.Crash T n b) →
      ∀ (w : List (WithPathId T) → BgpAddrs) (f : List T → BgpAddrs),
        (BgpAddrs.decodeAddpathIn .release p afi safi w f b).Returns := by
    intro T _ _ _ hT w f
    rw [Res.returns_iff]
    refine ⟨?_, nhr_addpath _ _ _ _ _ _⟩
    unfold BgpAddrs.decodeAddpathIn BgpAddrs.decodeAddpath
    have h1 := (wrapNlris_exactly (T := T) b).crash.not.2 (nc T hT 0 b).1
    have h2 := (wrapPathIds_exactly (T := T) b).crash.not.2 (nc T hT 0 b).2
    split
    · cases h : @decodePathIdItems T (itemIn T .release) b with
      | ok y => simp
      | err e => simp
      | panic => exact absurd h h2
      | hang => simp
    · cases h : @decodeItems T (itemIn T .release) b with
      | ok y => simp
      | err e => simp
      | panic => exact absurd h h1
      | hang => simp
  unfold BgpAddrs.decodeFromIn
  rcases ha with ha | ha <;> rcases hs with hs | hs <;> rw [ha, hs]
  · exact key BgpAddrV4 (fun _ _ => id) _ _
  · exact key BgpAddrV4 (fun _ _ => id) _ _
  · exact key BgpAddrV6 (fun _ _ => id) _ _
  · exact key BgpAddrV6 (fun _ _ => id) _ _

/-- non-vacuity: the length octets that crash a checked build -/
example : (BgpAddrs.decodeFromIn .release rsession 2 1 [255]).Returns :=
  C103_plain_nlri_return _ _ _ _ (.inr rfl) (.inl rfl)

/-- **C103.** An item that a build without overflow checks reads is read by a checked build too, or it takes at least one
octet more than its length announces: no further item is misread. -/
theorem C103_made_up_items_overrun (T : Type) [BgpItem T] [PrefixReads T] [PrefixExact T] [BgpItemIn T] [WrapReads T]
    [WrapExact T] [WrapOverrun T] (bits : U8) (b : Bytes) (x : T) (n : Nat)
    (h : @decodeItem T (itemIn T .release) (bits :: b) = .ok (x, n)) :
    decodeItem (bits :: b) = .ok (x, n) ∨ bits.toNat + 8 ≤ 8 * (n - 1) := by
  obtain ⟨bits', t, m, e, hr, hn⟩ := ((wrapNlri_exactly (T := T) (bits :: b)).ok (x, n)).1 h
  cases e
  rcases WrapOverrun.over _ _ _ _ bits.isLt hr with h1 | h1
  · exact .inl (((nlri_exactly (T := T) (bits :: b)).ok (x, n)).2 ⟨bits, b, m, rfl, h1, hn⟩)
  · right; simp only at hn; omega

/-- non-vacuity: every kind is covered, for example VPNv6 with labels -/
example (bits : U8) (b : Bytes) (x : Labeled (WithRd BgpAddrV6)) (n : Nat)
    (h : @decodeItem _ (itemIn _ .release) (bits :: b) = .ok (x, n)) :
    decodeItem (bits :: b) = .ok (x, n) ∨ bits.toNat + 8 ≤ 8 * (n - 1) := C103_made_up_items_overrun _ bits b x n h

/-- **C103**, made-up routes. Whatever the labels, route distinguisher and address: an item that announces 8 bits and
carries three labels, a route distinguisher and sixteen octets is read as a VPNv6 host route. A checked build crashes. -/
theorem C103_made_up_vpnv6_route (l1 l2 l3 : U32) (rd : BgpRD) (a : IPv6) (rest : Bytes)
    (h1 : l1.toNat < 2 ^ 20 ∧ l1.toNat ∉ stackEnding) (h2 : l2.toNat < 2 ^ 20 ∧ l2.toNat ∉ stackEnding)
    (h3 : l3.toNat < 2 ^ 20) :
    @decodeItem (Labeled (WithRd BgpAddrV6)) (itemIn _ .release)
      (8 :: (labelsBody [l1, l2, l3] ++ rdBody rd ++ be 16 a.toNat ++ rest)) =
        .ok (⟨⟨⟨a, 128⟩, rd⟩, ⟨[l1, l2, l3]⟩⟩, 34) ∧
    decodeItem (T := Labeled (WithRd BgpAddrV6))
      (8 :: (labelsBody [l1, l2, l3] ++ rdBody rd ++ be 16 a.toNat ++ rest)) = .panic := by
  have ne : ∀ l : U32, l.toNat ∉ stackEnding → ¬ EndsStack (l.toNat * 16) := by
    rintro l hl (h | h)
    · omega
    · rw [Nat.mul_div_cancel _ (by omega)] at h; exact hl h
  have el : ∀ l : U32, BitVec.ofNat 32 (l.toNat * 16 / 16) = l := fun l => by
    rw [Nat.mul_div_cancel _ (by omega)]; simp
  have el2 : ∀ l : U32, BitVec.ofNat 32 ((l.toNat * 16 + 1) / 16) = l := fun l => by
    rw [show (l.toNat * 16 + 1) / 16 = l.toNat by omega]; simp
  have hb : labelsBody [l1, l2, l3] ++ rdBody rd ++ be 16 a.toNat ++ rest =
      be 3 (l1.toNat * 16) ++ (be 3 (l2.toNat * 16) ++ (be 3 (l3.toNat * 16 + 1) ++
        (rdBody rd ++ (be 16 a.toNat ++ rest)))) := by
    simp [labelsBody]
  constructor
  · refine ((wrapNlri_exactly (T := Labeled (WithRd BgpAddrV6)) _).ok (_, _)).2 ⟨8, _, 33, rfl, ?_, rfl⟩
    refine ⟨9, 24, ?_, ⟨be 16 a.toNat ++ rest, 16, ?_, ?_, rfl⟩, rfl⟩
    · rw [hb]
      have r3 := WrapLabels.last (wrapSub (wrapSub 8 24) 24) (l3.toNat * 16 + 1)
        (rdBody rd ++ (be 16 a.toNat ++ rest)) (by omega) (by decide) (.inl (by omega))
      have r2 := WrapLabels.more (wrapSub 8 24) (l2.toNat * 16) _ _ _ (by omega) (by decide) (ne l2 h2.2) r3
      have r1 := WrapLabels.more 8 (l1.toNat * 16) _ _ _ (by omega) (by decide) (ne l1 h1.2) r2
      rw [el, el, el2] at r1
      exact r1
    · rw [List.append_assoc, List.append_assoc, List.drop_left' (by simp [labelsBody_length])]
    · refine ⟨by decide, by decide, by simp, rfl, ?_⟩
      rw [List.take_left' (by simp)]
      simp [PaddedOctets]
  · rw [decodeItem_cons]
    have : BgpItem.extractBits (T := Labeled (WithRd BgpAddrV6)) 8
        (labelsBody [l1, l2, l3] ++ rdBody rd ++ be 16 a.toNat ++ rest) = .panic :=
      (PrefixExact.exact (T := Labeled (WithRd BgpAddrV6)) 8 _).crash.2
        (.inl (.short _ _ (by decide) (.inl (by decide))))
    rw [this]; rfl

/-- non-vacuity -/
example : (16 : U32).toNat < 2 ^ 20 ∧ (16 : U32).toNat ∉ stackEnding := by decide

/-- **C103**, encoders. Without overflow checks, unicast, labelled and VPN prefixes are written with any number of labels;
the length octet is the number of bits modulo 256 (`nlriWire`). A checked build crashes from 256 bits on. -/
theorem C103_encoders_wrap (T : Type) [BgpItemIn T] [NlriKind T] [WrapWritable T] (h : WrapWireKind T) (v : List T)
    (hv : ∀ x ∈ v, WrapWritable.Ok x) (buf : Bytes) (hb : (v.flatMap nlriWire).length ≤ buf.length) :
    BgpAddrs.encItemsIn .release v buf =
      .ok (v.flatMap nlriWire ++ buf.drop (v.flatMap nlriWire).length, (v.flatMap nlriWire).length) := by
  have := WrapWire.of_kind h
  have hw : ∀ x ∈ v, Writes (@encodeItem T (itemIn T .release) x) (nlriWire x) := fun x hx =>
    @encodeItem_writes T (itemIn T .release) _ _ _ (WrapWire.writes x (hv x hx))
  exact encLoop_writes_zero v hw buf hb

/-- eleven labels before a /0: the length octet is 8, the item has 34 octets -/
example : (nlriWire (⟨⟨0, 0⟩, ⟨List.replicate 11 100⟩⟩ : Labeled BgpAddrV4)).take 1 = [8] ∧
    (nlriWire (⟨⟨0, 0⟩, ⟨List.replicate 11 100⟩⟩ : Labeled BgpAddrV4)).length = 34 := by decide
example : WrapWireKind (Labeled BgpAddrV4) := .labeled .v4

/-- **C103**, BMP. A route monitoring message whose UPDATE announces fewer than 19 octets crashes a checked build. Without
overflow checks the UPDATE is taken to have 65517 octets more: the reader crashes too when the message is shorter, and else
reads that many octets. -/
theorem C103_bmp_update_length_below_19 (h : Bytes) (hh : h.length = 42) (L : Nat) (hL : L < 19) (t : Bytes)
    (ht : t ≠ []) :
    ∃ peer, BmpMessagePeerHeader.decodeFrom h = .ok (peer, 42) ∧
      BmpMessage.decodeFrom (0 :: (h ++ (List.replicate 16 255 ++ (be 2 L ++ be 1 2) ++ t))) = .panic ∧
      (t.length < L + 65517 →
        BmpMessage.decodeFromIn .release (0 :: (h ++ (List.replicate 16 255 ++ (be 2 L ++ be 1 2) ++ t))) = .panic) ∧
      (L + 65517 ≤ t.length →
        BmpMessage.decodeFromIn .release (0 :: (h ++ (List.replicate 16 255 ++ (be 2 L ++ be 1 2) ++ t))) = do
          let u ← BgpUpdateMessage.new.decodeFromIn .release (.ofPeerHeader peer) (t.take (L + 65517))
          .ok (.RouteMonitoring ⟨peer, u⟩)) := by
  obtain ⟨peer, t', e, hd⟩ := peerHeader_exists h (by omega)
  have ht' : t' = [] := by
    have := congrArg List.length e
    rw [List.length_append, peerHeaderWire_length, hh] at this
    exact List.length_eq_zero_iff.1 (by omega)
  rw [ht', List.append_nil] at e
  subst e
  refine ⟨peer, by simpa using peerHeader_reads' peer hd [], ?_⟩
  have hw := peerHeader_reads' peer hd (List.replicate 16 255 ++ (be 2 L ++ be 1 2) ++ t)
  have key : ∀ m : Build, BmpMessage.decodeFromIn m
      (0 :: (peerHeaderWire peer ++ (List.replicate 16 255 ++ (be 2 L ++ be 1 2) ++ t))) =
      (if (peerHeaderWire peer ++ (List.replicate 16 255 ++ (be 2 L ++ be 1 2) ++ t)).length < 62 then
        .err .insufficientBufferSize
      else do
        let (x, _) ← decodeEmbeddedIn m .Update (BgpUpdateMessage.new.decodeFromIn m (.ofPeerHeader peer))
          (peerHeaderWire peer ++ (List.replicate 16 255 ++ (be 2 L ++ be 1 2) ++ t)) 42
        Res.ok (BmpMessage.RouteMonitoring ⟨peer, x⟩)) := by
    intro m
    unfold BmpMessage.decodeFromIn
    rw [idx_cons_zero, Res.ok_bind]
    change (do
      let __do_lift ← rfrom (0 :: _) 1
      let (x, _) ← BmpMessageRouteMonitoring.decodeFromIn m __do_lift
      Res.ok (BmpMessage.RouteMonitoring x)) = _
    rw [rfrom_ok (by simp), List.drop_succ_cons, List.drop_zero, Res.ok_bind]
    unfold BmpMessageRouteMonitoring.decodeFromIn
    split
    · rfl
    · rw [hw, Res.ok_bind]
      dsimp only
      cases decodeEmbeddedIn m .Update (BgpUpdateMessage.new.decodeFromIn m (.ofPeerHeader peer))
          (peerHeaderWire peer ++ (List.replicate 16 255 ++ (be 2 L ++ be 1 2) ++ t)) 42 <;> rfl
  have hlen : ¬ (peerHeaderWire peer ++ (List.replicate 16 255 ++ (be 2 L ++ be 1 2) ++ t)).length < 62 := by
    have := List.length_pos_iff.2 ht
    simp [peerHeaderWire_length]; omega
  have hf := rfrom_append (peerHeaderWire peer) (List.replicate 16 255 ++ (be 2 L ++ be 1 2) ++ t) 42
    (peerHeaderWire_length peer).symm
  have hr : decodeMessageHeadIn .release (List.replicate 16 255 ++ (be 2 L ++ be 1 2) ++ t) =
      .ok (.Update, L + 65517) := by
    have := head_release .Update L t
    rw [Nat.mod_eq_of_lt (by omega : L + 65517 < 65536)] at this
    exact this
  have hc : decodeMessageHead (List.replicate 16 255 ++ (be 2 L ++ be 1 2) ++ t) = .panic := by
    have := head_form L .Update t (by omega)
    rw [if_pos hL] at this
    simpa [List.append_assoc, typeCode] using this
  refine ⟨?_, fun hs => ?_, fun hs => ?_⟩
  · rw [← bmpDec_checked, key, if_neg hlen]
    unfold decodeEmbeddedIn
    rw [hf, Res.ok_bind, head_checked, hc]
    rfl
  · rw [key, if_neg hlen]
    unfold decodeEmbeddedIn
    rw [hf, Res.ok_bind, hr, Res.ok_bind]
    dsimp only
    rw [if_neg (by decide), rslice, if_neg (by simp [peerHeaderWire_length]; omega)]
    rfl
  · rw [key, if_neg hlen]
    unfold decodeEmbeddedIn
    rw [hf, Res.ok_bind, hr, Res.ok_bind]
    dsimp only
    have e : rslice (peerHeaderWire peer ++ (List.replicate 16 255 ++ (be 2 L ++ be 1 2) ++ t)) (42 + 19)
        (42 + 19 + (L + 65517)) = .ok (t.take (L + 65517)) := by
      rw [← List.append_assoc, rslice_append_right (by simp [peerHeaderWire_length]) (by omega)]
      rw [show 42 + 19 - (peerHeaderWire peer ++ (List.replicate 16 (255 : U8) ++ (be 2 L ++ be 1 2))).length = 0 by
          simp [peerHeaderWire_length],
        show 42 + 19 + (L + 65517) - (peerHeaderWire peer ++ (List.replicate 16 (255 : U8) ++ (be 2 L ++ be 1 2))).length =
          L + 65517 by simp [peerHeaderWire_length],
        rslice_ok (by omega) hs, List.drop_zero]
    rw [if_neg (by decide), e, Res.ok_bind]
    cases BgpUpdateMessage.new.decodeFromIn .release (.ofPeerHeader peer) (t.take (L + 65517)) <;> rfl

/-- non-vacuity: a peer header of zeros -/
example : (List.replicate 42 (0 : U8)).length = 42 ∧ 0 < 19 := by decide

/-! ## C104: containment without overflow checks -/

/-- **C104.** Without overflow checks no containment function crashes, for any values of the prefix lengths. -/
theorem C104_containment_returns :
    (∀ s a : BgpAddrV4, ∃ r, s.containsIn .release a = .ok r) ∧
    (∀ (s : BgpAddrV4) a, ∃ r, s.inSubnetIn .release a = .ok r) ∧
    (∀ s : BgpAddrV4, (∃ r, s.rangeFirstIn .release = .ok r) ∧ ∃ r, s.rangeLastIn .release = .ok r) ∧
    (∀ s a : BgpAddrV6, ∃ r, s.containsIn .release a = .ok r) ∧
    (∀ (s : BgpAddrV6) a, ∃ r, s.inSubnetIn .release a = .ok r) ∧
    (∀ s : BgpAddrV6, (∃ r, s.rangeFirstIn .release = .ok r) ∧ ∃ r, s.rangeLastIn .release = .ok r) ∧
    (∀ s a : BgpAddrMac, ∃ r, s.containsIn .release a = .ok r) ∧
    (∀ (s : BgpAddrMac) a, ∃ r, s.inSubnetIn .release a = .ok r) ∧
    (∀ s : BgpAddrMac, (∃ r, s.rangeFirstIn .release = .ok r) ∧ ∃ r, s.rangeLastIn .release = .ok r) :=
  ⟨containsV4_release, inSubnetV4_release,
    fun s => ⟨(rangeFirstV4_release s).imp fun _ h => h.1, rangeLastV4_release s⟩,
    containsV6_release, inSubnetV6_release,
    fun s => ⟨(rangeFirstV6_release s).imp fun _ h => h.1, rangeLastV6_release s⟩,
    containsMac_release, inSubnetMac_release, fun s => ⟨rangeFirstMac_release s, rangeLastMac_release s⟩⟩

/-- **C104.** What `range_first` returns without overflow checks, for every length octet: the first address covered by the
prefix with the effective length. That is the length itself from 1 up to the width of the address; else its remainder modulo
the width, and the full width instead of zero. -/
theorem C104_first_address_exactly :
    (∀ s : BgpAddrV4, ∃ v, s.rangeFirstIn .release = .ok v ∧
      IsFirst 32 s.addr.toNat (effectiveLen 32 s.prefixlen.toNat) v.toNat) ∧
    (∀ s : BgpAddrV6, ∃ v, s.rangeFirstIn .release = .ok v ∧
      IsFirst 128 s.addr.toNat (effectiveLen 128 s.prefixlen.toNat) v.toNat) ∧
    (∀ p, 1 ≤ p → p ≤ 32 → effectiveLen 32 p = p) ∧ (∀ p, 1 ≤ p → p ≤ 128 → effectiveLen 128 p = p) ∧
    effectiveLen 32 0 = 32 ∧ effectiveLen 128 0 = 128 := by
  refine ⟨fun s => ?_, fun s => ?_, fun p h1 h2 => ?_, fun p h1 h2 => ?_, rfl, rfl⟩
  · obtain ⟨v, h1, h2⟩ := rangeFirstV4_release s
    exact ⟨v, h1, h2 ▸ isFirst_blk s.addr.isLt⟩
  · obtain ⟨v, h1, h2⟩ := rangeFirstV6_release s
    exact ⟨v, h1, h2 ▸ isFirst_blk s.addr.isLt⟩
  · unfold effectiveLen; omega
  · unfold effectiveLen; omega

/-- **C104 (partial).** For lengths within the width and above zero, the results without overflow checks are those that C17
to C20 describe: they are the ones of a checked build. What is missing: the default routes
(`C104_default_route_first`, `C104_ipv6_default_route_empty`). -/
theorem C104_same_as_checked_partial :
    (∀ s : BgpAddrV4, 0 < s.prefixlen.toNat → s.prefixlen.toNat ≤ 32 →
      s.rangeFirstIn .release = s.rangeFirst ∧ s.rangeLastIn .release = s.rangeLast ∧
      (∀ a, s.inSubnetIn .release a = s.inSubnet a)) ∧
    (∀ s : BgpAddrV6, 0 < s.prefixlen.toNat → s.prefixlen.toNat ≤ 128 →
      s.rangeFirstIn .release = s.rangeFirst ∧ s.rangeLastIn .release = s.rangeLast ∧
      (∀ a, s.inSubnetIn .release a = s.inSubnet a)) ∧
    (∀ s : BgpAddrMac, s.prefixlen.toNat ≤ 48 →
      s.rangeFirstIn .release = s.rangeFirst ∧ s.rangeLastIn .release = s.rangeLast ∧
      (∀ a, s.inSubnetIn .release a = s.inSubnet a)) ∧
    (∀ s a : BgpAddrV4, s.prefixlen.toNat ≤ 32 → a.prefixlen.toNat ≤ 32 →
      s.containsIn .release a = s.contains a) ∧
    (∀ s a : BgpAddrV6, s.prefixlen.toNat ≤ 128 → a.prefixlen.toNat ≤ 128 →
      s.containsIn .release a = s.contains a) ∧
    (∀ s a : BgpAddrMac, s.prefixlen.toNat ≤ 48 → a.prefixlen.toNat ≤ 48 →
      s.containsIn .release a = s.contains a) := by
  have np : ∀ {α : Type} {x : Res α}, (∃ r, x = .ok r) → x ≠ .panic := by
    rintro α x ⟨r, rfl⟩ h; cases h
  refine ⟨fun s h0 h => ⟨?_, ?_, fun a => ?_⟩, fun s h0 h => ⟨?_, ?_, fun a => ?_⟩, fun s h => ⟨?_, ?_, fun a => ?_⟩,
    fun s a hs ha => ?_, fun s a hs ha => ?_, fun s a hs ha => ?_⟩
  · exact same (bsim_rangeFirstV4 s) (np ((rangeFirstV4 h0 h).imp fun _ h => h.1))
  · exact same (bsim_rangeLastV4 s) (np ((rangeLastV4 h).imp fun _ h => h.1))
  · exact same (bsim_inSubnetV4 s a) (np ⟨_, inSubnetV4 h a⟩)
  · exact same (bsim_rangeFirstV6 s) (np ((rangeFirstV6 h0 h).imp fun _ h => h.1))
  · exact same (bsim_rangeLastV6 s) (np ((rangeLastV6 h).imp fun _ h => h.1))
  · exact same (bsim_inSubnetV6 s a) (np ⟨_, inSubnetV6 h0 h a⟩)
  · exact same (bsim_rangeFirstMac s) (np ((rangeFirstMac h).imp fun _ h => h.1))
  · exact same (bsim_rangeLastMac s) (np ((rangeLastMac h).imp fun _ h => h.1))
  · exact same (bsim_inSubnetMac s a) (np ⟨_, inSubnetMac h a⟩)
  · exact same (bsim_containsV4 s a) (np (C20_contains_returns (.V4 s) (.V4 a) hs ha))
  · exact same (bsim_containsV6 s a) (np (C20_contains_returns (.V6 s) (.V6 a) hs ha))
  · exact same (bsim_containsMac s a) (np (C20_contains_returns (.MAC s) (.MAC a) hs ha))

/-- **C104 fails** for default routes: without overflow checks the first address of `a/0` is `a` itself, although the
address zero is covered. A checked build crashes (C19). -/
theorem C104_default_route_first :
    (∀ a : IPv4, (⟨a, 0⟩ : BgpAddrV4).rangeFirstIn .release = .ok a) ∧
    (∀ a : IPv6, (⟨a, 0⟩ : BgpAddrV6).rangeFirstIn .release = .ok a) ∧
    (∀ a : IPv4, a ≠ 0 → ¬ IsFirst 32 a.toNat 0 a.toNat) ∧ (∀ a : IPv6, a ≠ 0 → ¬ IsFirst 128 a.toNat 0 a.toNat) := by
  refine ⟨fun a => ?_, fun a => ?_, fun a h0 h => ?_, fun a h0 h => ?_⟩
  · obtain ⟨v, h1, h2⟩ := rangeFirstV4_release ⟨a, 0⟩
    have e : effectiveLen 32 (0 : U8).toNat = 32 := by decide
    simp only [e, Nat.sub_self] at h2
    rw [h1]; congr 1
    apply BitVec.eq_of_toNat_eq
    rw [h2]
    simp [blkFirst]
  · obtain ⟨v, h1, h2⟩ := rangeFirstV6_release ⟨a, 0⟩
    have e : effectiveLen 128 (0 : U8).toNat = 128 := by decide
    simp only [e, Nat.sub_self] at h2
    rw [h1]; congr 1
    apply BitVec.eq_of_toNat_eq
    rw [h2]
    simp [blkFirst]
  · have h1 := h.2.2 0 (by decide) (by
      unfold Covers; rw [Nat.zero_div, Nat.sub_zero, Nat.div_eq_of_lt a.isLt])
    exact h0 (BitVec.eq_of_toNat_eq (by simpa using h1))
  · have h1 := h.2.2 0 (by decide) (by
      unfold Covers; rw [Nat.zero_div, Nat.sub_zero, Nat.div_eq_of_lt a.isLt])
    exact h0 (BitVec.eq_of_toNat_eq (by simpa using h1))

/-- **C104 fails** for the IPv6 default route: without overflow checks `in_subnet` denies it for every address. -/
theorem C104_ipv6_default_route_empty (a ip : IPv6) :
    (⟨a, 0⟩ : BgpAddrV6).inSubnetIn .release ip = .ok false ∧ Covers 128 a.toNat 0 ip.toNat := by
  refine ⟨?_, ?_⟩
  · obtain ⟨v, h1, h2⟩ := normV6_release ⟨a, 0⟩
    obtain ⟨m, h3, h4⟩ := hostMaskV6_release ⟨a, 0⟩
    unfold BgpAddrV6.inSubnetIn
    rw [if_neg (show ¬ (0 : U8).toNat > 127 by decide), h1, h3, getn128_octets]
    simp only [Res.ok_bind, Build.add, Res.ok.injEq, Bool.and_eq_false_iff, decide_eq_false_iff_not]
    have e : effectiveLen 128 (0 : U8).toNat = 128 := by decide
    have h5 : m.toNat = 0 := by simpa only [e, Nat.sub_self, Nat.pow_zero] using h4
    have h6 : m = 0 := BitVec.eq_of_toNat_eq h5
    have h7 : v + (0 : U128) = v := BitVec.add_zero v
    rw [h6, h7]
    omega
  · unfold Covers; rw [Nat.sub_zero, Nat.div_eq_of_lt a.isLt, Nat.div_eq_of_lt ip.isLt]

/-- non-vacuity: lengths within the bounds; and /40 acts as /8 on IPv4 -/
example : (⟨0x0a010203, 40⟩ : BgpAddrV4).rangeFirstIn .release = .ok 0x0a000000 := by decide
example : (⟨0x0a010203, 24⟩ : BgpAddrV4).rangeFirstIn .release = (⟨0x0a010203, 24⟩ : BgpAddrV4).rangeFirst :=
  (C104_same_as_checked_partial.1 _ (by decide) (by decide)).1

end Zbgp.Props
