import Verif.Lemmas.MvpnSent
import Verif.Lemmas.ReadsAll
import Verif.Props.Addrs

/-! # C80: exactly which NLRI are read, as what, and which crash the program; C50: what is sent for MVPN routes -/

namespace Zbgp.Props

open Zbgp Spec

/-- **C80.** The NLRI field of any family, in any session: it yields exactly the collections `AddrsRead` describes, with the
number of octets taken, it brings the program down exactly if `AddrsCrash` holds, and it is refused with an error in all
other cases; the decoder always ends. -/
theorem C80_nlri_read_exactly (p : BgpSessionParams) (f : Family) (b : Bytes) :
    Exactly (BgpAddrs.decodeFrom p (familyCode f).1 (familyCode f).2 b) (fun y => AddrsRead p f b y.1 y.2)
      (AddrsCrash p f b) :=
  addrs_exactly p f b

/-- non-vacuity: a VPN route is read, with the octets behind it; -/
example : AddrsRead plainSession .ipv4Vpn ([112, 0, 0x11, 0x11, 0, 0, 0, 1, 0, 0, 0, 2, 10, 1, 2])
    (.VPNV4U [⟨⟨⟨0x0a010200, 24⟩, ⟨1, 2⟩⟩, ⟨[0x111]⟩⟩]) 15 := by
  refine .ipv4Vpn _ _ _ (by decide) (.item _ _ 15 _ 0 (by decide) ?_ (.done _ (by decide)))
  refine ⟨112, _, 14, rfl, ⟨3, 11, ?_, ⟨_, 3, by decide, rfl, ?_, rfl⟩, rfl⟩, rfl⟩
  · exact .last 112 0x1111 _ (by decide) (by decide) (by decide)
  · exact ⟨by decide, by decide, by decide, by decide, show be 4 _ = _ by decide⟩

/-- a length octet of 249 or more crashes it, behind any prefixes that are read; -/
example : AddrsCrash plainSession .ipv4Unicast [8, 10, 249] := by
  show PrefixFieldCrash BgpAddrV4 _ _ _
  unfold PrefixFieldCrash
  rw [if_neg (by decide)]
  refine .later _ ⟨0x0a000000, 8⟩ 2 (by decide) ⟨8, [10, 249], 1, rfl, ?_, rfl⟩ (.here _ (by decide) (.inr ⟨249, [], rfl, ?_⟩))
  · exact ⟨by decide, by decide, by decide, by decide, show be 4 _ = _ by decide⟩
  · show 249 ≤ (249 : U8).toNat
    decide

/-- and a length octet between 33 and 248 is neither. -/
example : (BgpAddrs.decodeFrom plainSession 1 1 [33, 1, 2, 3, 4, 5]).IsErr := by decide

/-- **C80**, items of every kind on their own: prefixes with and without path identifiers, VPLS, EVPN, MVPN in sessions of
both transports, and FlowSpec. -/
theorem C80_items_read_exactly :
    (∀ (T : Type) [BgpItem T] [PrefixReads T], PrefixReadsKind T → ∀ b,
      Exactly (decodeItems (T := T) b) (fun y => ItemsRead 0 NlriRead b y.1 y.2)
        (ItemsCrash 0 (NlriRead (T := T)) (NlriCrash T) b) ∧
      Exactly (decodePathIdItems (T := T) b) (fun y => ItemsRead 4 PathIdRead b y.1 y.2)
        (ItemsCrash 4 (PathIdRead (T := T)) (PathIdCrash T) b)) ∧
    (∀ b, Exactly (decodeLongItems (T := BgpAddrL2) b) (fun y => ItemsRead 0 VplsRead b y.1 y.2)
      (ItemsCrash 0 VplsRead VplsCrash b)) ∧
    (∀ mode b, Exactly (decodeAddrItems (T := BgpEVPN) mode b) (fun y => ItemsRead 0 EvpnItemRead b y.1 y.2)
      (ItemsCrash 0 EvpnItemRead EvpnItemCrash b)) ∧
    (∀ mode b, Exactly (decodeAddrItems (T := BgpMVPN) mode b) (fun y => ItemsRead 0 (MvpnItemRead mode) b y.1 y.2)
      (ItemsCrash 0 (MvpnItemRead mode) MvpnItemCrash b)) ∧
    (∀ (T : Type) [FSItem T] [FsPrefixReads T], FsReadsKind T → ∀ mode b,
      Exactly (decodeAddrItems (T := BgpFlowSpec T) mode b) (fun y => ItemsRead 0 FsItemRead b y.1 y.2)
        (ItemsCrash 0 (FsItemRead (T := T)) (FsItemCrash T) b)) := by
  refine ⟨fun T _ _ h b => ?_, fun b => ?_, fun mode b => ?_, fun mode b => ?_, fun T _ _ h mode b => ?_⟩
  · have := PrefixExact.of_kind h
    exact ⟨nlris_exactly b, pathIds_exactly b⟩
  · exact items_exactly vpls_progress (fun b _ => vpls_exactly b) b
  · exact items_exactly (evpn_progress mode) (fun b _ => evpn_exactly mode b) b
  · exact items_exactly (mvpn_progress mode) (fun b _ => mvpn_exactly mode b) b
  · have := FsPrefixExact.of_kind h
    exact items_exactly (fs_progress mode) (fun b _ => fs_exactly mode b) b

/-- non-vacuity: kinds of prefixes, an MVPN route in an IPv6 session, a FlowSpec item -/
example : PrefixReadsKind (Labeled (WithRd BgpAddrV6)) := .labeled (.withRd .v6)
example : MvpnItemRead .IPv6 ([2, 12, 0, 0, 0, 1, 0, 0, 0, 2, 0, 0, 0xfd, 0xe8, 9, 9]) (.t2 ⟨⟨1, 2⟩, 65000⟩) 14 :=
  ⟨12, [0, 0, 0, 1, 0, 0, 0, 2, 0, 0, 0xfd, 0xe8], [9, 9], 12, rfl, rfl,
    .plain (.t2 ⟨⟨1, 2⟩, 65000⟩) [] (fun h => nomatch h) trivial (fun h => nomatch h), rfl⟩
example : FsItemRead (T := BgpAddrV4) [3, 3, 0x81, 6] (.proto ⟨[⟨false, false, false, true, 6⟩]⟩) 4 :=
  ⟨[3], 3, 3, [0x81, 6], [], 3, .one 3 (by decide), rfl, rfl,
    .proto _ _ ⟨2, .item _ _ 2 _ 0 (by decide) ⟨0x81, [], by decide, ⟨rfl, rfl, rfl, rfl⟩, by decide, rfl, rfl⟩
      (.done _ (by decide))⟩, rfl⟩

/-- **C80**, consequence: the same octets are never read in two ways, and octets that are read never crash the program. -/
theorem C80_reading_is_unambiguous (p : BgpSessionParams) (f : Family) (b : Bytes) :
    (∀ x n y m, AddrsRead p f b x n → AddrsRead p f b y m → x = y ∧ n = m) ∧
      (∀ x n, AddrsRead p f b x n → ¬ AddrsCrash p f b) := by
  have h := addrs_exactly p f b
  refine ⟨fun x n y m h1 h2 => ?_, fun x n h1 h2 => ?_⟩
  · have := h.unique (a := (x, n)) (b := (y, m)) h1 h2
    simpa using this
  · have h1 := (h.ok (x, n)).2 h1
    rw [h.crash.2 h2] at h1
    cases h1

/-! ## C50 -/

/-- **C50**, sending: for every list of MVPN routes of any type, in any session, exactly the octets of `mvpnSent` are
written; they are those of RFC 6514 for types 1 and 2 only. -/
theorem C50_mvpn_sent (l : List BgpMVPN) (mode : BgpTransportMode) (buf : Bytes)
    (hb : (l.flatMap mvpnSent).length ≤ buf.length) :
    encodeAddrItems l mode buf =
      .ok (l.flatMap mvpnSent ++ buf.drop (l.flatMap mvpnSent).length, (l.flatMap mvpnSent).length) :=
  encLoop_writes_zero l (fun x _ => mvpn_sent x mode) buf hb

example : mvpnSent (.t7 ⟨⟨1, 2⟩, 65000, .v4 0x0a000001, .v4 0xe0000001⟩) =
    [7, 20, 0, 0, 0, 1, 0, 0, 0, 2, 0, 0, 0xfd, 0xe8, 10, 0, 0, 1, 0xe0, 0, 0, 1] := by decide

/-- **C50**, what is sent departs from the format exactly for types 3 to 7. -/
theorem C50_sent_is_wire_iff (x : BgpMVPN) : mvpnSent x = mvpnWire x ↔ mvpnType x = 1 ∨ mvpnType x = 2 := by
  constructor
  · intro h
    have h : (mvpnSentBody x).length = (mvpnBody x).length := by
      have := congrArg List.length h
      simpa [mvpnSent, mvpnWire] using this
    cases x with
    | t1 r => exact .inl rfl
    | t2 r => exact .inr rfl
    | t3 r => simp only [mvpnBody, mvpnSentBody, mvpn3_lengths] at h; omega
    | t4 r => simp only [mvpnBody, mvpnSentBody, List.length_append, List.length_cons, mvpn3_lengths] at h; omega
    | t5 r => simp only [mvpnBody, mvpnSentBody, List.length_append, lenIp_length] at h; omega
    | t6 r => simp only [mvpnBody, mvpnSentBody, List.length_append, lenIp_length] at h; omega
    | t7 r => simp only [mvpnBody, mvpnSentBody, List.length_append, lenIp_length] at h; omega
  · intro h
    cases x with
    | t1 r => rfl
    | t2 r => rfl
    | _ => simp [mvpnType] at h

/-- **C50**, the gap in full: what is sent for a route of one of the types 3 to 7 is never read as that route, whatever
follows it; and if all its addresses are of the family of the session it is refused. -/
theorem C50_types_3_to_7_never_carried (x : BgpMVPN) (mode : BgpTransportMode) (rest : Bytes)
    (hx : 3 ≤ (mvpnType x).toNat) :
    (∀ n, BgpAddrItem.decodeFrom mode (mvpnSent x ++ rest) ≠ .ok (x, n)) ∧
      (MvpnWF mode x → (BgpAddrItem.decodeFrom (T := BgpMVPN) mode (mvpnSent x ++ rest)).IsErr) :=
  ⟨fun n h => sent_not_read hx (((mvpn_exactly mode _).ok (x, n)).1 h), fun hw => sent_refused hx hw rest⟩

example : 3 ≤ (mvpnType (.t3 ⟨⟨1, 2⟩, .v4 1, .v4 2, .v4 3⟩)).toNat ∧ MvpnWF .IPv4 (.t3 ⟨⟨1, 2⟩, .v4 1, .v4 2, .v4 3⟩) :=
  ⟨by decide, rfl, rfl, rfl⟩

end Zbgp.Props
