import Verif.Lemmas.Whim
import Verif.Lemmas.Live
import Verif.Lemmas.StormLive
import Verif.Lemmas.SocketsLive
import Verif.Lemmas.StormsLive
import Verif.Lemmas.Tended

namespace Binate

open Spec RSocketMachine

/-- **C126.** An execution of the calls of one machine, over a connection that answers as it likes, is one
over a connection whose answers are a function of what it was handed; what is proved of all of the latter
holds of it. -/
theorem C126_calls (dbg : Bool) (σ : Nat → Conc) (hf : Follows (Whim (ConcStep dbg)) σ) :
    ∃ tr, WithConn (ConcStep dbg) σ tr :=
  have ⟨tr, _, h⟩ := whim_single (good := fun _ => True) (Inv := fun _ => True) (wire := Conc.wire)
    (fun _ _ => trivial) (fun _ => conc_grows) (fun _ => conc_same) trivial hf (d := .ok ()) trivial
  ⟨tr, h⟩

/-- **C126.** The same, with panics of the connection. -/
theorem C126_panics (dbg : Bool) (σ : Nat → WildConc) (hf : Follows (Whim (WildStep dbg)) σ) :
    ∃ tr, (∀ l f, tr l f ≠ .diverge) ∧ WithConn (WildStep dbg) σ tr :=
  whim_single (good := (· ≠ .diverge)) (Inv := fun _ => True) (wire := WildConc.wire)
    (fun _ _ => trivial) (fun _ => wild_grows) (fun _ => wild_same) trivial hf (d := .ok (.ok ())) nofun

/-- **C126.** A whole machine with its tasks. -/
theorem C126_machine (dbg : Bool) (role : Role) (timeout created spawned : Nat) (σ : Nat → System)
    (h0 : σ 0 = System.new role timeout created spawned) (hf : Follows (Whim (System.Step dbg)) σ) :
    ∃ tr, Forever dbg tr role timeout created spawned σ ∧ WithConn (System.Step dbg) σ tr :=
  have ⟨tr, _, h⟩ := whim_single (good := fun _ => True) (Inv := fun _ => True) (wire := (·.conc.wire))
    (fun _ _ => trivial) (fun _ => system_grows) (fun _ => system_same) trivial hf (d := .ok ()) trivial
  ⟨tr, ⟨h0, h.follows⟩, h⟩

/-- The same push is taken, and after the user has closed the connection refused. -/
example : ∃ (σ : Nat → System) (e : Error), σ 0 = System.new .client 5 0 0 ∧
    Follows (Whim (System.Step false)) σ ∧ (σ 1).userCloses = 0 ∧ (σ 2).userCloses = 1 ∧
    (σ 1).conc.asked = [.metadataPush [1#8] (.ok ())] ∧
    (σ 3).conc.asked = [.metadataPush [1#8] (.ok ()), .metadataPush [1#8] (.error e)] := by
  let frame : Frame := Frame.metadataPush (MetadataPushFrame.new [1#8])
  let push (s : System) (r : Except Error Unit) : System :=
    { s.emit ([frame].map .frame) with conc := { s.conc with
        wire := s.conc.wire ++ [frame], asked := s.conc.asked ++ [.metadataPush [1#8] r] } }
  let s0 := System.new .client 5 0 0
  let s1 := push s0 (.ok ())
  let s2 : System := { s1.emit [.act .close] with userCloses := s1.userCloses + 1 }
  let s3 := push s2 (.error ⟨.connectionClose, none⟩)
  have pushes : ∀ s r, 0 < s.handles → Whim (System.Step false) s (push s r) := fun s r h =>
    ⟨fun _ _ => r, .request s _ [frame] h (.push s.conc [1#8]) rfl⟩
  refine ⟨fun | 0 => s0 | 1 => s1 | 2 => s2 | _ => s3, _, rfl, fun n => ?_, rfl, rfl, rfl, rfl⟩
  match n with
  | 0 => exact .inl (pushes _ _ (by decide))
  | 1 => exact .inl ⟨fun _ _ => .ok (), .close s1 (by decide)⟩
  | 2 => exact .inl (pushes _ _ (by decide))
  | n + 3 => exact .inr rfl

/-- **C126.** A whole machine, with panics of the connection. -/
theorem C126_wild (dbg : Bool) (role : Role) (timeout created spawned : Nat) (σ : Nat → WildSystem)
    (h0 : σ 0 = WildSystem.new role timeout created spawned) (hf : Follows (Whim (WildSystem.Step dbg)) σ) :
    ∃ tr, (∀ l f, tr l f ≠ .diverge) ∧ WithConn (WildSystem.Step dbg) σ tr ∧
      ∀ n, WildSystem.Reachable dbg tr role timeout created spawned (σ n) :=
  have ⟨tr, hd, h⟩ := whim_single (good := (· ≠ .diverge)) (Inv := fun _ => True) (wire := (·.conc.wire))
    (fun _ _ => trivial) (fun _ => wildSystem_grows) (fun _ => wildSystem_same) trivial hf
    (d := .ok (.ok ())) nofun
  ⟨tr, hd, h, fun n => by
    induction n with
    | zero => rw [h0]; exact .init
    | succ n ih =>
      rcases h.follows n with hs | he
      · exact ih.step hs
      · rw [he]; exact ih⟩

/-- **C126.** On a runtime that may be shut down. -/
theorem C126_hosted (dbg : Bool) (σ : Nat → Hosted) (hf : Follows (Whim (Hosted.Step dbg)) σ) :
    ∃ tr, WithConn (Hosted.Step dbg) σ tr :=
  have ⟨tr, _, h⟩ := whim_single (good := fun _ => True) (Inv := fun _ => True) (wire := (·.sys.conc.wire))
    (fun _ _ => trivial) (fun _ => hosted_grows) (fun _ => hosted_same) trivial hf (d := .ok ()) trivial
  ⟨tr, h⟩

/-- **C126.** With log lines that may panic. -/
theorem C126_noisy (dbg : Bool) (σ : Nat → Noisy) (hf : Follows (Whim (Noisy.Step dbg)) σ) :
    ∃ tr, WithConn (Noisy.Step dbg) σ tr :=
  have ⟨tr, _, h⟩ := whim_single (good := fun _ => True) (Inv := fun _ => True) (wire := (·.sys.conc.wire))
    (fun _ _ => trivial) (fun _ => noisy_grows) (fun _ => noisy_same) trivial hf (d := .ok ()) trivial
  ⟨tr, h⟩

/-- **C126.** A whole machine with everything that can go wrong. -/
theorem C126_storm (dbg : Bool) (role : Role) (timeout created spawned : Nat) (σ : Nat → Storm)
    (h0 : σ 0 = Storm.new role timeout created spawned) (hf : Follows (Whim (Storm.Step dbg)) σ) :
    ∃ tr, (∀ l f, tr l f ≠ .diverge) ∧ StormForever dbg tr role timeout created spawned σ ∧
      WithConn (Storm.Step dbg) σ tr :=
  have ⟨tr, hd, h⟩ := whim_single (good := (· ≠ .diverge)) (Inv := fun _ => True)
    (wire := (·.sys.conc.wire)) (fun _ _ => trivial) (fun _ => storm_grows) (fun _ => storm_same) trivial hf
    (d := .ok (.ok ())) nofun
  ⟨tr, hd, ⟨h0, h.follows⟩, h⟩

/-- **C126.** The same, with the request handlers that are set and dropped. -/
theorem C126_tended {H : Type} (dbg : Bool) (dummy : H) (role : Role) (timeout created spawned : Nat)
    (σ : Nat → Tended H) (h0 : σ 0 = Tended.new dummy role timeout created spawned)
    (hf : Follows (Whim (Tended.Step dbg)) σ) :
    ∃ tr, (∀ l f, tr l f ≠ .diverge) ∧ TendedForever dbg tr dummy role timeout created spawned σ ∧
      WithConn (Tended.Step dbg) σ tr :=
  have ⟨tr, hd, h⟩ := whim_single (good := (· ≠ .diverge)) (Inv := fun _ => True)
    (wire := fun a : Tended H => a.storm.sys.conc.wire) (fun _ _ => trivial) (fun _ => tended_grows)
    (fun _ => tended_same) trivial hf (d := .ok (.ok ())) nofun
  ⟨tr, hd, ⟨h0, h.follows⟩, h⟩

/-- **C126.** Any number of sockets, each with a connection that answers as it likes. -/
theorem C126_sockets (dbg : Bool) (now : Nat) (τ : Nat → Sockets) (h0 : τ 0 = Sockets.init now)
    (hf : Follows (Whim (SocketsStep dbg)) τ) :
    ∃ trs, AllForever dbg trs τ ∧ WithConn (SocketsStep dbg) τ trs :=
  have ⟨trs, _, h⟩ := whim_one sockets_asks (h0 ▸ ⟨worldInv_init, fun _ _ => rfl⟩) hf (d := .ok ()) trivial
  ⟨trs, ⟨⟨now, h0⟩, h.follows⟩, h⟩

/-- **C126.** Any number of sockets with everything that can go wrong. -/
theorem C126_storms (dbg : Bool) (now : Nat) (τ : Nat → Storms) (h0 : τ 0 = Storms.init now)
    (hf : Follows (Whim (Storms.Step dbg)) τ) :
    ∃ trs, (∀ a l f, trs a l f ≠ .diverge) ∧ StormsForever dbg trs τ ∧ WithConn (Storms.Step dbg) τ trs :=
  have ⟨trs, hd, h⟩ := whim_one storms_asks (h0 ▸ ⟨⟨worldInv_init, nofun⟩, fun _ _ => rfl⟩) hf
    (d := .ok (.ok ())) nofun
  ⟨trs, hd, ⟨⟨now, h0⟩, h.follows⟩, h⟩

/-- **C126.** So what is proved of every state that can be reached over such connections holds of all that is
reached over connections that answer as they like. -/
theorem C126_reachable (dbg : Bool) :
    (∀ role timeout created spawned s,
      Reached (Whim (System.Step dbg)) (System.new role timeout created spawned) s →
      ∃ tr, System.Reachable dbg tr role timeout created spawned s) ∧
    (∀ role timeout created spawned h,
      Reached (Whim (Storm.Step dbg)) (Storm.new role timeout created spawned) h →
      ∃ tr, Storm.Reachable dbg tr role timeout created spawned h) ∧
    (∀ (H : Type) (dummy : H) role timeout created spawned a,
      Reached (Whim (Tended.Step dbg)) (Tended.new dummy role timeout created spawned) a →
      ∃ tr, Tended.Reachable dbg tr dummy role timeout created spawned a) ∧
    (∀ now t, Reached (Whim (SocketsStep dbg)) (Sockets.init now) t → ∃ trs, SocketsReachable dbg trs t) ∧
    ∀ now t, Reached (Whim (Storms.Step dbg)) (Storms.init now) t → ∃ trs, Storms.Reachable dbg trs t := by
  refine ⟨fun role timeout created spawned s h => ?_, fun role timeout created spawned s h => ?_,
    fun H dummy role timeout created spawned a h => ?_, fun now t h => ?_, fun now t h => ?_⟩ <;> obtain ⟨σ, N, h0, hf, hN⟩ := reached_follows h <;>
    rw [← hN N (Nat.le_refl N)]
  · obtain ⟨tr, h, _⟩ := C126_machine dbg _ _ _ _ σ h0 hf
    exact ⟨tr, forever_reachable h N⟩
  · obtain ⟨tr, _, h, _⟩ := C126_storm dbg _ _ _ _ σ h0 hf
    exact ⟨tr, stormForever_reachable h N⟩
  · obtain ⟨tr, _, h, _⟩ := C126_tended dbg _ _ _ _ _ σ h0 hf
    exact ⟨tr, tendedForever_reachable h N⟩
  · obtain ⟨trs, h, _⟩ := C126_sockets dbg _ σ h0 hf
    exact ⟨trs, always_reachable h N⟩
  · obtain ⟨trs, _, h, _⟩ := C126_storms dbg _ σ h0 hf
    exact ⟨trs, storms_reachable h N⟩

/-- Two sockets; the connection of one panics in the `close` that the connection of the other takes. -/
example : ∃ t, Reached (Whim (Storms.Step false)) (Storms.init 0) t ∧ t.world.made.length = 2 ∧
    ∀ g ∈ t.world.made, (t.keeper g.connection).userCloses = 1 :=
  ⟨_, .next (.next (.next (.next .here ⟨fun _ _ _ => .ok (.ok ()), .new _ .client 5 0 0 (by decide)⟩)
      ⟨fun _ _ _ => .diverge, .new _ .server 5 0 0 (by decide)⟩)
      ⟨fun _ _ _ => .panic "", .close _ 0 _ rfl⟩)
      ⟨fun _ _ _ => .ok (.ok ()), .closePanics _ 1 _ rfl⟩, rfl, by decide +kernel⟩

/-- The connection takes the first `close` and panics in the second, with a handler set in between. -/
example : ∃ a : Tended Nat, Reached (Whim (Tended.Step false)) (Tended.new 0 .client 5 0 0) a ∧
    a.storm.sys.userCloses = 2 ∧ a.storm.sys.panics = 1 ∧ given a.events = [7] :=
  ⟨_, .next (.next (.next .here
      ⟨fun _ _ => .ok (.ok ()), .machine _ _ (.run _ _ (.close _ (by decide)) (by decide)) nofun⟩)
      ⟨fun _ _ => .ok (.ok ()), .handler _ _ _ (by decide) (.calm (.call _ 7))⟩)
      ⟨fun _ _ => .panic "", .machine _ _ (.run _ _ (.closePanics _ (by decide)) (by decide)) nofun⟩, rfl, rfl, rfl⟩

end Binate
