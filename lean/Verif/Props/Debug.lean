import Verif.Lemmas.DebugMsg
import Verif.Lemmas.OpenReads
import Verif.Lemmas.BmpReads
import Verif.Props.Bmp
import Verif.Props.Update
import Verif.Props.Dumper

/-!
# C97: what `{:?}` prints tells values apart

`u` stands for the two Unicode tables of the standard library (which characters are combining, which are printable); the
theorems hold whatever is in them.
-/

namespace Zbgp.Props

open Zbgp Spec

/-! ## Routes, attributes, messages -/

/-- **C97, routes.** Two lists of routes, of any families, that are printed alike are equal: family, order, path ids,
labels, route distinguishers and everything else. -/
theorem C97_routes (u : UnicodeTables) (x y : BgpAddrs) (h : debugText u x = debugText u y) : x = y := debugText_inj u h

/-- **C97, attributes.** Two path attributes, of any kinds, that are printed alike are equal; attribute sets with all that is
nested in them, too. -/
theorem C97_attribute (u : UnicodeTables) (x y : BgpAttrItem) (h : debugText u x = debugText u y) : x = y := debugText_inj u h

/-- **C97, UPDATE.** -/
theorem C97_update (u : UnicodeTables) (x y : BgpUpdateMessage) (h : debugText u x = debugText u y) : x = y := debugText_inj u h

/-- **C97, NOTIFICATION.** -/
theorem C97_notification (u : UnicodeTables) (x y : BgpNotificationMessage) (h : debugText u x = debugText u y) : x = y :=
  debugText_inj u h

/-- **C97, OPEN.** A Rust `String` is UTF-8 (`OpenTexts`): host and domain names may have quotes, commas, braces, line feeds
and characters that are not printable in them. -/
theorem C97_open (u : UnicodeTables) (x y : BgpOpenMessage) (hx : OpenTexts x) (hy : OpenTexts y)
    (h : debugText u x = debugText u y) : x = y :=
  open_inj hx hy (render_inj u (open_wf hx) (open_wf hy) h)

/-- **C97, session parameters.** -/
theorem C97_session (u : UnicodeTables) (x y : BgpSessionParams) (hx : ∀ c ∈ x.caps, CapTexts c) (hy : ∀ c ∈ y.caps, CapTexts c)
    (h : debugText u x = debugText u y) : x = y :=
  params_inj hx hy (render_inj u (params_wf hx) (params_wf hy) h)

/-- **C97, BMP.** -/
theorem C97_bmp (u : UnicodeTables) (x y : BmpMessage) (hx : BmpTexts x) (hy : BmpTexts y)
    (h : debugText u x = debugText u y) : x = y :=
  bmp_inj hx hy (render_inj u (bmp_wf hx) (bmp_wf hy) h)

/-! ## The hypotheses are met by whatever is received -/

theorem cap_texts {code : U8} {data : Bytes} {o : Option BgpCapability} (h : CapRead code data o) : ∀ c ∈ o, CapTexts c := by
  intro c hc
  cases h with
  | mp data c' h =>
    cases hc
    cases c with
    | CapFQDN a b => simp [capValue] at h
    | _ => trivial
  | fqdn host hl hu => cases hc; exact ⟨hu, [], by simp, rfl⟩
  | _ => cases hc <;> trivial

theorem caps_texts {b : Bytes} {l : List BgpCapability} (h : CapsRead b l) : ∀ c ∈ l, CapTexts c := by
  induction h with
  | done => simp
  | cap code data rest o l hl h hr ih =>
    intro c hc
    rcases List.mem_append.1 hc with hc | hc
    · exact cap_texts h c (by simpa using hc)
    · exact ih c hc

theorem parameters_texts {b : Bytes} {l : List BgpCapability} (h : ParamsRead b l) : ∀ c ∈ l, CapTexts c := by
  induction h with
  | done => simp
  | param body rest l l' hl h hr ih =>
    intro c hc
    rcases List.mem_append.1 hc with hc | hc
    · exact caps_texts h c hc
    · exact ih c hc

theorem openRead_texts {b : Bytes} {m : BgpOpenMessage} (h : OpenRead b m) : OpenTexts m := by
  obtain ⟨_, _, _, _, _, h⟩ := h
  exact parameters_texts h

/-- **C97.** In a received OPEN the strings are texts, so `C97_open` is about it. -/
theorem C97_open_received (self : BgpOpenMessage) (b : Bytes) (m : BgpOpenMessage) (h : self.decodeFrom b = .ok m) : OpenTexts m :=
  openRead_texts ((open_iff self b m).1 h)

theorem lastOf_text {ty : Nat} {l : List (Nat × Bytes)} (h : ∀ t ∈ l, t.1 < 65536 ∧ InfoOk t.2) : OptText (lastOf ty l) := by
  intro b hb
  obtain ⟨t, ht, rfl⟩ := Option.map_eq_some_iff.1 hb
  exact (h t (List.mem_filter.1 (List.mem_of_getLast? ht)).1).2.1

theorem termination_text {b : Bytes} {m : BmpMessageTermination} (h : TerminationRead b m) : OptText m.str0 := by
  induction h with
  | done => intro b hb; cases hb
  | text s rest x h hr ih =>
    intro b hb
    cases hx : x.str0 with
    | none => rw [hx] at hb; cases hb; exact h.1
    | some t => rw [hx] at hb; cases hb; exact ih _ hx
  | reason v rest rest' r x hv h hr ih => exact ih
  | other ty v rest x ht ht' hv hr ih => exact ih

theorem bmpRead_texts {P : BmpMessagePeerHeader → BgpSessionParams → Prop} {b : Bytes} {m : BmpMessage} (h : BmpRead P b m) :
    BmpTexts m := by
  cases h with
  | up b m h =>
    obtain ⟨_, _, _, _, _, _, ⟨_, _, _, h1⟩, _, _, _, h2⟩ := h
    exact ⟨openRead_texts h1, openRead_texts h2⟩
  | initiation b m h =>
    obtain ⟨l, -, h, rfl⟩ := h
    exact ⟨lastOf_text h, lastOf_text h, lastOf_text h⟩
  | termination b m h => exact termination_text h
  | _ => trivial

/-- **C97.** In a received BMP message the strings are texts, so `C97_bmp` is about it. -/
theorem C97_bmp_received (b : Bytes) (m : BmpMessage) (h : BmpMessage.decodeFrom b = .ok m) : BmpTexts m :=
  bmpRead_texts (((bmp_exactly b).ok m).1 h)

/-! ## One line each -/

/-- **C97, lines.** What is printed for an UPDATE, an OPEN or a BMP message is one line, whatever strings the peer sent. -/
theorem C97_one_line (u : UnicodeTables) :
    (∀ x : BgpUpdateMessage, '\n' ∉ debugText u x) ∧ (∀ x : BgpNotificationMessage, '\n' ∉ debugText u x) ∧
    (∀ x : BgpOpenMessage, OpenTexts x → '\n' ∉ debugText u x) ∧ (∀ x : BmpMessage, BmpTexts x → '\n' ∉ debugText u x) :=
  ⟨fun x => render_noLf u (DebugOk.wf x), fun x => render_noLf u (DebugOk.wf x), fun _ h => render_noLf u (open_wf h),
    fun _ h => render_noLf u (bmp_wf h)⟩

/-! ## The example program -/

/-- **C97, the example program.** From what the program has printed on the standard output one can tell which NOTIFICATION
and UPDATE messages it received, in order: two runs with the same output received the same ones. -/
theorem C97_dumper (u : UnicodeTables) (l l' : List DumperEvent) (h : dumperText u l = dumperText u l') : told l = told l' := by
  unfold dumperText at h
  rw [filterMap_line, filterMap_line] at h
  have noLf : ∀ l, ∀ s ∈ (told l).map (toldLine u), '\n' ∉ s := fun l s hs => by
    obtain ⟨x, -, rfl⟩ := List.mem_map.1 hs
    exact toldLine_noLf u x
  have e := lines_inj (noLf l) (noLf l') h
  exact (List.map_inj_right fun _ _ => toldLine_inj u).1 e

/-! ## Cases -/

/-- tables in which everything is printable -/
def plainTables : UnicodeTables := ⟨fun _ => false, fun _ => true⟩

/-- what is printed for a NOTIFICATION -/
example : String.ofList (debugText plainTables (⟨6, 2, 0⟩ : BgpNotificationMessage)) =
    "BgpNotificationMessage { error_code: 6, error_subcode: 2, data: 0 }" := by decide

/-- what is printed for routes with path ids -/
example : String.ofList (debugText plainTables (BgpAddrs.IPV4UP [⟨1, ⟨0x0a000000, 8⟩⟩])) =
    "IPV4UP([WithPathId { pathid: 1, nlri: BgpAddrV4 { addr: 10.0.0.0, prefixlen: 8 } }])" := by decide

/-- an empty list of one family and an empty list of another are printed differently -/
example : debugText plainTables (BgpAddrs.IPV4U []) ≠ debugText plainTables (BgpAddrs.IPV6U []) :=
  fun h => nomatch C97_routes _ _ _ h

/-- a host name that looks like the end of the text, and has a line feed -/
example : OpenTexts ⟨65001, 180, 0, [.CapFQDN [0x22, 0x7D, 0x0A] []]⟩ := by
  intro c hc
  simp only [List.mem_singleton] at hc
  subst hc
  exact ⟨⟨[0x22, 0x7D, 0x0A], by decide, by decide⟩, [], by simp, rfl⟩

example : String.ofList (debugText plainTables (⟨65001, 180, 0, [.CapFQDN [0x22, 0x7D, 0x0A] []]⟩ : BgpOpenMessage)) =
    "BgpOpenMessage { as_num: 65001, hold_time: 180, router_id: 0.0.0.0, caps: [CapFQDN(\"\\\"}\\n\", \"\")] }" := by decide

/-- a BMP message -/
example : BmpTexts (.PeerUpNotification up4) := by
  refine ⟨?_, ?_⟩ <;> intro c hc <;> simp only [up4, openOwn, open4, List.mem_cons, List.not_mem_nil, or_false] at hc
  · subst hc; trivial
  · rcases hc with rfl | rfl <;> trivial

/-- a history of the program -/
example : told [.incorrectOpen, .notification ⟨6, 2, 0⟩, .updateError .static, .update update4] = [.inl ⟨6, 2, 0⟩, .inr update4] := rfl

example : String.ofList (dumperText plainTables [.incorrectOpen, .notification ⟨6, 2, 0⟩]) =
    "BGP notification: BgpNotificationMessage { error_code: 6, error_subcode: 2, data: 0 } - \"Cease subcode 2\"\n" := by
  decide

end Zbgp.Props
