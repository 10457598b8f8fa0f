import Verif.Lemmas.Volume
import Verif.Props.Attrs
import Verif.Props.Messages

/-! # C96: what is decoded holds no more than the octets it was decoded from -/

namespace Zbgp.Props

open Zbgp Spec

/-! ## NLRI -/

/-- **C96, NLRI.** Whatever an NLRI field decodes to, in any session and for any family: the routes, and everything in lists
in them, are together no more than the octets of the field. -/
theorem C96_nlri (p : BgpSessionParams) (afi : U16) (safi : U8) (b : Bytes) (x : BgpAddrs) (n : Nat)
    (h : BgpAddrs.decodeFrom p afi safi b = .ok (x, n)) : addrsVolume x ≤ b.length := by
  by_cases hf : ∃ f, familyCode f = (afi, safi)
  · obtain ⟨f, hf⟩ := hf
    have e : BgpAddrs.decodeFrom p (familyCode f).1 (familyCode f).2 b = .ok (x, n) := by rw [hf]; exact h
    exact (addrs_paid (((addrs_exactly p f b).ok (x, n)).1 e)).2
  · rw [addrs_unknown fun f hf' => hf ⟨f, hf'⟩] at h
    cases h

/-- n default routes -/
theorem default_routes (n : Nat) :
    ItemsRead 0 NlriRead (List.replicate n (0 : U8)) (List.replicate n (⟨0, 0⟩ : BgpAddrV4)) n := by
  induction n with
  | zero => exact .done _ (by simp)
  | succ n ih =>
    rw [List.replicate_succ, List.replicate_succ, Nat.add_comm]
    exact .item _ _ 1 _ _ (by simp) ⟨0, _, 0, rfl, ⟨by decide, rfl, Nat.zero_le _, rfl, rfl⟩, rfl⟩ ih

/-- **C96.** The bound on NLRI cannot be improved: for every number `n` there is a field of `n` octets that decodes to `n`
routes, in every session without AddPath for IPv4 unicast that does not guess. -/
theorem C96_nlri_reached (p : BgpSessionParams) (hp : ReceivesAddPath p.caps (1, 1) = false) (hg : p.fuzzyPathid = false)
    (n : Nat) : ∃ b x, b.length = n ∧ BgpAddrs.decodeFrom p 1 1 b = .ok (x, n) ∧ addrsVolume x = n := by
  refine ⟨List.replicate n 0, .IPV4U (List.replicate n ⟨0, 0⟩), by simp, ?_, ?_⟩
  · refine ((addrs_exactly p .ipv4Unicast _).ok (_, n)).2 (.ipv4Unicast _ _ _ ?_ (default_routes n))
    rw [AddPathExpected, hp, hg]; rfl
  · simp [addrsVolume, total, vol]

example : ReceivesAddPath session32.caps (1, 1) = false ∧ session32.fuzzyPathid = false := ⟨by decide, rfl⟩

/-- a labeled route with two labels holds three things and takes eleven octets -/
example : vol (α := Labeled BgpAddrV4) ⟨⟨0x0A000000, 8⟩, ⟨[3, 5]⟩⟩ = 3 := rfl

/-! ## Attributes -/

/-- **C96, attributes.** An attribute value of `n` octets decodes to an attribute that holds at most `n` things besides
itself. -/
theorem C96_attribute (p : BgpSessionParams) (code flags : U8) (v : Bytes) (x : BgpAttrItem)
    (h : BgpAttrItem.decodeFrom p code flags v.length v = .ok x) : attrVolume x ≤ v.length + 1 :=
  (value_paid p v.length code flags v x rfl (((value_exactly p code flags v).ok x).1 h)).1

/-- **C96, attribute sets.** Attribute sets inside an attribute are nested at most once in seven octets (the decoder calls
itself that often, one call inside the other). -/
theorem C96_nesting (p : BgpSessionParams) (code flags : U8) (v : Bytes) (x : BgpAttrItem)
    (h : BgpAttrItem.decodeFrom p code flags v.length v = .ok x) : 7 * setDepth x ≤ v.length + 3 :=
  (value_paid p v.length code flags v x rfl (((value_exactly p code flags v).ok x).1 h)).2

/-- The value of `d + 1` attribute sets in each other. -/
def nestedSets : Nat → Bytes
  | 0 => [0, 0, 0, 0]
  | d + 1 => be 4 0 ++ (rawWire ⟨128, 0xD0, nestedSets d⟩ ++ [])

/-- The attribute. -/
def nestedItem : Nat → BgpAttrItem
  | 0 => .AttrSet 0 []
  | d + 1 => .AttrSet 0 [nestedItem d]

theorem nestedSets_length (d : Nat) : (nestedSets d).length = 8 * d + 4 := by
  induction d with
  | zero => rfl
  | succ d ih =>
    unfold nestedSets
    have e := rawWire_length ⟨128, 0xD0, nestedSets d⟩
    rw [if_pos (show extended 0xD0 = true by decide)] at e
    rw [List.length_append, List.length_append, e, be_length, ih]
    simp; omega

theorem nestedItem_depth (d : Nat) : setDepth (nestedItem d) = d + 1 := by
  induction d with
  | zero => rfl
  | succ d ih =>
    unfold nestedItem
    simp only [setDepth, setsDepth, ih]
    omega

theorem nestedSets_read (p : BgpSessionParams) (h32 : p.hasAs32bit = true) (d : Nat) (hd : 8 * d ≤ 65531) :
    ValueRead p 128 0xD0 (nestedSets d) (nestedItem d) := by
  induction d with
  | zero => exact .attrSet 0xD0 0 [] [] h32 .nil
  | succ d ih =>
    refine .attrSet 0xD0 0 _ _ h32 (.cons ⟨128, 0xD0, nestedSets d⟩ _ [] [] ?_ (ih (by omega)) .nil)
    show (nestedSets d).length ≤ maxValue 0xD0
    rw [nestedSets_length, show maxValue 0xD0 = 65535 by decide]
    omega

/-- **C96.** The depth grows with the octets: for every `d` up to 8191, a value of `8 d + 4` octets decodes to `d + 1`
attribute sets in each other, in every session with 32-bit AS numbers. There is no other limit. -/
theorem C96_nesting_reached (p : BgpSessionParams) (h32 : p.hasAs32bit = true) (d : Nat) (hd : d ≤ 8191) :
    ∃ v x, v.length = 8 * d + 4 ∧ BgpAttrItem.decodeFrom p 128 0xD0 v.length v = .ok x ∧ setDepth x = d + 1 :=
  ⟨nestedSets d, nestedItem d, nestedSets_length d,
    ((value_exactly p 128 0xD0 _).ok _).2 (nestedSets_read p h32 d (by omega)), nestedItem_depth d⟩

example : setDepth (nestedItem 8191) = 8192 ∧ (nestedSets 8191).length = 65532 := ⟨nestedItem_depth _, nestedSets_length _⟩

/-- an AS path of three numbers in twelve octets -/
example : BgpAttrItem.decodeFrom session32 2 0x40 12 [0, 0, 0, 1, 0, 0, 0, 2, 0, 0, 0, 3] =
    .ok (.ASPath ⟨[⟨1⟩, ⟨2⟩, ⟨3⟩]⟩) ∧ attrVolume (.ASPath ⟨[⟨1⟩, ⟨2⟩, ⟨3⟩]⟩) = 4 := ⟨rfl, rfl⟩

/-! ## Messages -/

/-- **C96, UPDATE.** All routes and attributes of a decoded message, and everything in lists in them at any depth, are
together at most its octets less four; and attribute sets are nested at most once in seven octets. -/
theorem C96_update (p : BgpSessionParams) (buf : Bytes) (m : BgpUpdateMessage)
    (h : BgpUpdateMessage.new.decodeFrom p buf = .ok m) :
    updateVolume m + 4 ≤ buf.length ∧ 7 * setsDepth m.attrs + 4 ≤ buf.length := by
  obtain ⟨l, hr, e⟩ := ((update_exactly _ p buf).ok m).1 h
  have hl : m.attrs = l := e
  rw [← hl] at hr
  exact update_paid hr

theorem attrsVolume_append (l l' : List BgpAttrItem) : attrsVolume (l ++ l') = attrsVolume l + attrsVolume l' := by
  induction l with
  | nil => simp [attrsVolume]
  | cons x l ih => simp only [List.cons_append, attrsVolume, ih]; omega

/-- Messages decoded one after the other into the same object. -/
def reuse (p : BgpSessionParams) : BgpUpdateMessage → List Bytes → Res BgpUpdateMessage
  | m, [] => .ok m
  | m, b :: bs => m.decodeFrom p b >>= fun m' => reuse p m' bs

/-- **C96, reused objects.** If one object is used for several messages, it holds no more than the octets of all of them,
and what it held before. -/
theorem C96_update_reused (p : BgpSessionParams) (bs : List Bytes) : ∀ (self m : BgpUpdateMessage), reuse p self bs = .ok m →
    updateVolume m ≤ updateVolume self + (bs.map List.length).sum := by
  induction bs with
  | nil => intro self m h; cases h; simp
  | cons b bs ih =>
    intro self m h
    rw [reuse] at h
    cases hd : self.decodeFrom p b with
    | ok m' =>
      rw [hd, Res.ok_bind] at h
      obtain ⟨l, hr, e⟩ := ((update_exactly _ p b).ok m').1 hd
      have a := (update_paid hr).1
      have c := ih m' m h
      have v : updateVolume m' = addrsVolume m'.withdraws + (attrsVolume self.attrs + attrsVolume l) + addrsVolume m'.updates := by
        rw [← attrsVolume_append, ← e]; rfl
      have v' : attrsVolume self.attrs ≤ updateVolume self := by unfold updateVolume; omega
      simp only [List.map_cons, List.sum_cons]
      omega
    | err e => rw [hd] at h; cases h
    | panic => rw [hd] at h; cases h
    | hang => rw [hd] at h; cases h

/-- an UPDATE with a withdrawn prefix, ORIGIN and a default route: three things in eleven octets -/
example : ∃ m, BgpUpdateMessage.new.decodeFrom session32 [0, 2, 8, 10, 0, 4, 0x40, 1, 1, 0, 0] = .ok m ∧ updateVolume m = 3 :=
  ⟨⟨.IPV4U [⟨0, 0⟩], .IPV4U [⟨0x0A000000, 8⟩], [.Origin ⟨.Igp⟩]⟩, rfl, rfl⟩

/-- **C96, OPEN.** The capabilities of a decoded message and their entries are together at most its octets less ten. -/
theorem C96_open (self : BgpOpenMessage) (b : Bytes) (m : BgpOpenMessage) (h : self.decodeFrom b = .ok m) :
    total capVolume m.caps + 10 ≤ b.length :=
  open_paid ((open_iff self b m).1 h)

example : ∃ m, BgpOpenMessage.new.decodeFrom [4, 0, 1, 0, 180, 1, 1, 1, 1, 8, 2, 6, 69, 4, 0, 1, 1, 3] = .ok m ∧
    total capVolume m.caps = 2 := ⟨⟨1, 180, 0x01010101, [.CapAddPath [⟨1, 1, true, true⟩]]⟩, rfl, rfl⟩

/-- **C96, BMP.** After any history, what a BMP message decodes to holds no more than its octets. -/
theorem C96_bmp (hist : List Bytes) (b : Bytes) :
    (∀ m, ((after hist).decodeFrom b).1 = .ok m → bmpVolume m ≤ b.length) ∧
    (∀ m, BmpMessage.decodeFrom b = .ok m → bmpVolume m ≤ b.length) :=
  ⟨fun m h => bmp_paid (((after_exactly hist b).ok m).1 h), fun m h => bmp_paid (((bmp_exactly b).ok m).1 h)⟩

/-- What an entry of the table holds: itself, and the capabilities of the two OPEN messages. -/
def entryVolume (e : BgpSessionKey × BmpMessagePeerUp) : Nat := 1 + bmpVolume (.PeerUpNotification e.2)

theorem insert_volume (k : BgpSessionKey) (m : BmpMessagePeerUp) (l : List (BgpSessionKey × BmpMessagePeerUp)) :
    total entryVolume (BTree.insert k m l) ≤ total entryVolume l + (1 + bmpVolume (.PeerUpNotification m)) := by
  induction l with
  | nil => simp [BTree.insert, total, entryVolume]
  | cons e l ih =>
    obtain ⟨k', m'⟩ := e
    unfold BTree.insert
    cases ROrd.cmp k k' <;> simp only [total_cons, entryVolume] at ih ⊢ <;> omega

theorem remove_volume (k : BgpSessionKey) (l : List (BgpSessionKey × BmpMessagePeerUp)) :
    total entryVolume (BTree.remove k l) ≤ total entryVolume l := by
  induction l with
  | nil => simp [BTree.remove, total]
  | cons e l ih =>
    obtain ⟨k', m'⟩ := e
    unfold BTree.remove
    cases ROrd.cmp k k' <;> simp only [total_cons] <;> omega

theorem peer_up_paid {b : Bytes} {m : BmpMessagePeerUp} (h : PeerUpIs b m) :
    1 + bmpVolume (.PeerUpNotification m) + 120 ≤ b.length := by
  obtain ⟨body, rfl, opens, rest1, rest2, rfl, _, _, h1, h2⟩ := h
  obtain ⟨b1, e1, h1⟩ := embedded_paid h1
  obtain ⟨b2, e2, h2⟩ := embedded_paid h2
  have := open_paid h1
  have := open_paid h2
  have l1 : (peerHeaderWire m.peer).length = 42 := by
    have ha : (bmpAddr m.peer.peeraddress).length = 16 := by cases m.peer.peeraddress <;> simp [bmpAddr, be_length]
    simp [peerHeaderWire, be_length, ha]
  have l2 : (bmpAddr m.localaddress).length = 16 := by cases m.localaddress <;> simp [bmpAddr, be_length]
  simp only [bmpVolume, List.length_cons, List.length_append, l1, l2, be_length]
  omega

theorem session_volume (s : BMPSession) (b : Bytes) :
    total entryVolume (s.decodeFrom b).2.sessions ≤ total entryVolume s.sessions + b.length := by
  by_cases h1 : ∃ m, PeerUpIs b m
  · obtain ⟨m, h⟩ := h1
    have hp := peer_up_paid h
    rw [← peerUpDec_eq] at h
    rw [session_up s h]
    have := insert_volume (.ofPeer m.peer) m s.sessions
    dsimp only
    omega
  · by_cases h2 : ∃ m, PeerDownIs b m
    · obtain ⟨m, h⟩ := h2
      rw [← peerDownDec_eq] at h
      rw [session_down s h]
      have := remove_volume (.ofPeer m.peer) s.sessions
      dsimp only
      omega
    · rw [C60_others_change_nothing s b (fun m h => h1 ⟨m, h⟩) (fun m h => h2 ⟨m, h⟩)]
      omega

/-- **C96, BMP table.** After any history the table of the session, with everything in it, holds no more than the octets of
the messages. -/
theorem C96_bmp_table (hist : List Bytes) : total entryVolume (after hist).sessions ≤ (hist.map List.length).sum := by
  suffices h : ∀ (s : BMPSession), total entryVolume (hist.foldl (fun s b => (s.decodeFrom b).2) s).sessions ≤
      total entryVolume s.sessions + (hist.map List.length).sum by
    have := h .default
    simpa [after, BMPSession.default, total] using this
  induction hist with
  | nil => intro s; simp
  | cons b bs ih =>
    intro s
    have a := session_volume s b
    have c := ih (s.decodeFrom b).2
    simp only [List.foldl_cons, List.map_cons, List.sum_cons]
    omega

/-- an initiation with a text of two octets -/
example : ∃ m, BmpMessage.decodeFrom [4, 0, 2, 0, 2, 65, 66] = .ok m ∧ bmpVolume m = 2 :=
  ⟨.Initiation ⟨none, none, some [65, 66]⟩, rfl, rfl⟩

/-- a history with a peer-up -/
example : ∃ b m, PeerUpIs b m := ⟨_, _, up4_is⟩

end Zbgp.Props
