import Verif.Lemmas.VolumeRelease
import Verif.Props.Volume

/-!
# C123: without overflow checks, too, what is decoded holds no more than the octets it was decoded from

A build without overflow checks goes on where one with them stops: it reads label stacks beyond the announced length of a prefix, and
bodies of BGP messages of any length behind a header that announces too little. The measures are those of C96.
-/

namespace Zbgp.Props

open Spec

/-- **C123, NLRI.** Whatever an NLRI field decodes to without overflow checks, in any session and for any family: the routes, and
everything in lists in them, are together no more than the octets of the field, and no more than the octets that are reported as
consumed. -/
theorem C123_nlri (p : BgpSessionParams) (afi : U16) (safi : U8) (b : Bytes) (x : BgpAddrs) (n : Nat)
    (h : BgpAddrs.decodeFromIn .release p afi safi b = .ok (x, n)) : addrsVolume x ≤ b.length ∧ addrsVolume x ≤ n := by
  by_cases hf : ∃ f, familyCode f = (afi, safi)
  · obtain ⟨f, hf⟩ := hf
    have e : BgpAddrs.decodeFromIn .release p (familyCode f).1 (familyCode f).2 b = .ok (x, n) := by rw [hf]; exact h
    have := w_addrs_paid (((w_addrs_exactly p f b).ok (x, n)).1 e)
    exact ⟨this.2, this.1⟩
  · rcases bsim_addrsDec p afi safi b with h' | h'
    · rw [addrs_unknown fun f hf' => hf ⟨f, hf'⟩] at h'
      cases h'
    · rw [addrs_unknown fun f hf' => hf ⟨f, hf'⟩, h] at h'
      cases h'

/-- a route that announces eight bits and is read with ten labels in 34 octets; with the checks this is a crash -/
example : ∃ x, BgpAddrs.decodeFromIn .release session32 1 4
      (8 :: ((List.replicate 9 [0, 1, 0]).flatten ++ [0, 1, 1, 10, 0, 0])) = .ok (x, 34) ∧ addrsVolume x = 11 ∧
    BgpAddrs.decodeFrom session32 1 4 (8 :: ((List.replicate 9 [0, 1, 0]).flatten ++ [0, 1, 1, 10, 0, 0])) = .panic :=
  ⟨.IPV4LU [⟨⟨0x0a000000, 24⟩, ⟨List.replicate 10 16⟩⟩], rfl, rfl, rfl⟩

/-- **C123, attributes.** An attribute value of `n` octets decodes without overflow checks to an attribute that holds at most `n`
things besides itself, with attribute sets nested at most once in seven octets. -/
theorem C123_attribute (p : BgpSessionParams) (code flags : U8) (v : Bytes) (x : BgpAttrItem)
    (h : BgpAttrItem.decodeFromIn .release p code flags v.length v = .ok x) :
    attrVolume x ≤ v.length + 1 ∧ 7 * setDepth x ≤ v.length + 3 :=
  w_value_paid p v.length code flags v x rfl (((Rel.value_exactly p code flags v).ok x).1 h)

/-- withdrawing the route above -/
example : ∃ x, BgpAttrItem.decodeFromIn .release session32 15 0x80 37
      ([0, 1, 4] ++ 8 :: ((List.replicate 9 [0, 1, 0]).flatten ++ [0, 1, 1, 10, 0, 0])) = .ok x ∧ attrVolume x = 12 :=
  ⟨.MPWithdraws ⟨.IPV4LU [⟨⟨0x0a000000, 24⟩, ⟨List.replicate 10 16⟩⟩]⟩, rfl, rfl⟩

/-- **C123, UPDATE.** All routes and attributes of a decoded message, and everything in lists in them at any depth, are together at
most its octets less four; and attribute sets are nested at most once in seven octets. -/
theorem C123_update (p : BgpSessionParams) (buf : Bytes) (m : BgpUpdateMessage)
    (h : BgpUpdateMessage.new.decodeFromIn .release p buf = .ok m) :
    updateVolume m + 4 ≤ buf.length ∧ 7 * setsDepth m.attrs + 4 ≤ buf.length := by
  obtain ⟨l, hr, e⟩ := ((Rel.update_exactly _ p buf).ok m).1 h
  have hl : m.attrs = l := e
  rw [← hl] at hr
  exact w_update_paid hr

example : ∃ m, BgpUpdateMessage.new.decodeFromIn .release session32 [0, 2, 8, 10, 0, 4, 0x40, 1, 1, 0, 0] = .ok m ∧
    updateVolume m = 3 := ⟨⟨.IPV4U [⟨0, 0⟩], .IPV4U [⟨0x0A000000, 8⟩], [.Origin ⟨.Igp⟩]⟩, rfl, rfl⟩

/-- `decode_from` on one object, again and again, without overflow checks. -/
def reuseRelease (p : BgpSessionParams) : BgpUpdateMessage → List Bytes → Res BgpUpdateMessage
  | m, [] => .ok m
  | m, b :: bs => m.decodeFromIn .release p b >>= fun m' => reuseRelease p m' bs

/-- **C123, reused objects.** If one object is used for several messages, it holds no more than the octets of all of them, and
what it held before. -/
theorem C123_update_reused (p : BgpSessionParams) (bs : List Bytes) : ∀ (self m : BgpUpdateMessage),
    reuseRelease p self bs = .ok m → updateVolume m ≤ updateVolume self + (bs.map List.length).sum := by
  induction bs with
  | nil => intro self m h; cases h; simp
  | cons b bs ih =>
    intro self m h
    rw [reuseRelease] at h
    cases hd : self.decodeFromIn .release p b with
    | ok m' =>
      rw [hd] at h
      obtain ⟨l, hr, e⟩ := ((Rel.update_exactly self p b).ok m').1 hd
      have a := (w_update_paid hr).1
      have c := ih m' m h
      simp only [updateVolume, List.map_cons, List.sum_cons, e, attrsVolume_append] at c ⊢
      omega
    | _ => rw [hd] at h; cases h

example : ∃ m, reuseRelease session32 .new [[0, 2, 8, 10, 0, 4, 0x40, 1, 1, 0, 0], [0, 0, 0, 4, 0x40, 1, 1, 1]] = .ok m ∧
    m.attrs.length = 2 := ⟨⟨.IPV4U [], .IPV4U [], [.Origin ⟨.Igp⟩, .Origin ⟨.Egp⟩]⟩, rfl, rfl⟩

/-- **C123, BMP.** After any history, what a BMP message decodes to holds no more than its octets, although the bodies of the BGP
messages inside may be longer than those announce. -/
theorem C123_bmp (hist : List Bytes) (b : Bytes) :
    (∀ m, ((afterRelease hist).decodeFromIn .release b).1 = .ok m → bmpVolume m ≤ b.length) ∧
    (∀ m, BmpMessage.decodeFromIn .release b = .ok m → bmpVolume m ≤ b.length) :=
  ⟨fun m h => w_bmp_paid (((w_after_exactly hist b).ok m).1 h), fun m h => w_bmp_paid (((w_bmp_exactly b).ok m).1 h)⟩

example : ∃ m, BmpMessage.decodeFromIn .release [4, 0, 2, 0, 2, 65, 66] = .ok m ∧ bmpVolume m = 2 :=
  ⟨.Initiation ⟨none, none, some [65, 66]⟩, rfl, rfl⟩

theorem session_volume_release (s : BMPSession) (b : Bytes) :
    total entryVolume (s.decodeFromIn .release b).2.sessions ≤ total entryVolume s.sessions + b.length := by
  by_cases h1 : ∃ m, WrapPeerUpIs b m
  · obtain ⟨m, h⟩ := h1
    have hp := w_peer_up_paid h
    rw [w_session_up s h]
    have := insert_volume (.ofPeer m.peer) m s.sessions
    dsimp only
    omega
  · by_cases h2 : ∃ m, WrapPeerDownIs b m
    · obtain ⟨m, h⟩ := h2
      rw [w_session_down s h]
      have := remove_volume (.ofPeer m.peer) s.sessions
      dsimp only
      omega
    · rw [w_session_other s (fun m h => h1 ⟨m, h⟩) (fun m h => h2 ⟨m, h⟩)]
      omega

/-- **C123, BMP table.** After any history the table of the session, with everything in it, holds no more than the octets of the
messages. -/
theorem C123_bmp_table (hist : List Bytes) :
    total entryVolume (afterRelease hist).sessions ≤ (hist.map List.length).sum := by
  suffices h : ∀ (s : BMPSession), total entryVolume (hist.foldl (fun s b => (s.decodeFromIn .release b).2) s).sessions ≤
      total entryVolume s.sessions + (hist.map List.length).sum by
    have := h .default
    simpa [afterRelease, BMPSession.default, total] using this
  induction hist with
  | nil => intro s; simp
  | cons b bs ih =>
    intro s
    have a := session_volume_release s b
    have c := ih (s.decodeFromIn .release b).2
    simp only [List.foldl_cons, List.map_cons, List.sum_cons]
    omega

/-- a history after which there is an entry in the table -/
example : (afterRelease [up4Bytes]).sessions.length = 1 := by
  have he : ∀ {α : Type} {ty : BgpMessageType} {R : Bytes → α → Prop} {b : Bytes} {m : α} {rest : Bytes},
      EmbeddedRead ty R b m rest → WrapEmbeddedRead ty R b m rest := by
    rintro α ty R b m rest ⟨body, rfl, hl, hr⟩
    refine ⟨body.length + 19, body, ?_, by omega, by omega, hr⟩
    simp [message, header, announced, Nat.add_comm]
  have hu : WrapPeerUpIs up4Bytes up4 := by
    obtain ⟨body, h, opens, r1, r2, h1, h2, h3, h4, h5⟩ := up4_is
    exact ⟨body, h, opens, r1, r2, h1, h2, h3, he h4, he h5⟩
  have : afterRelease [up4Bytes] = ((BMPSession.default).decodeFromIn .release up4Bytes).2 := by
    unfold afterRelease
    rw [List.foldl_cons, List.foldl_nil]
  rw [this, w_session_up _ hu]
  rfl

end Zbgp.Props
