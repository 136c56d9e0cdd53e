/-
What holds of the parts of C28 and C64 that the code breaks in general: C166 (nonces), C176 (lookups are answered).
-/
import Verif.Props.AdsProtoMore

namespace Verif.Ads

/-- **C166 (partial)** In the incremental protocol every response of a supported type is answered with its own nonce,
whether it is accepted or rejected, and the first requests on a new stream carry no nonce of an old one. -/
theorem C166_incremental_partial (cfg : Cfg) (hi : cfg.incremental = true) (es : List Ev) :
    (∀ (t : RType) (n : String) (v : Bool) (rs rm), (Client.run cfg es).receiving = true → t.supported = true →
      ∃ e, ((Client.run cfg es).answer cfg (.delta t n v rs rm)).head? = some (.delta t n [] [] e)) ∧
    (Client.run cfg (.connect :: es)).sent = (Client.run cfg es).sent ++
      [.delta .cluster "" (wild cfg.deltaWild ["*"]) [] false, .delta .listener "" (wild cfg.deltaWild ["*"]) [] false,
       .delta .nameTable "" (wild cfg.deltaWild ["*"]) [] false] := by
  constructor
  · intro t n v rs rm hr hs
    cases ha : ((Client.run cfg es).handleResponse (.delta t n v rs rm)).2 with
    | true => exact ⟨false, C28_ack cfg _ (.delta t n v rs rm) hr hs ha⟩
    | false => exact ⟨true, C28_nack_delta cfg _ t n v rs rm hr hs ha⟩
  · simp [Client.run, Client.step, Client.connect, Client.subscribeReq, Client.reset, hi]

example : deltaCfg.incremental = true ∧
    let es : List Ev := [.recv (.delta .cluster "a" true [("web", .good exCluster)] []), .connect]
    (Client.run deltaCfg es).receiving = true ∧
    ((Client.run deltaCfg es).answer deltaCfg (.delta .cluster "b" false [] [])).head? = some (.delta .cluster "b" [] [] true) := by
  decide +kernel

/-- **C176 (partial)** Once a non-empty response of every type the server provides was accepted on this connection, every
lookup is answered, whatever else was received. -/
theorem C176_answers_partial (cfg : Cfg) (p : Provided) (es : List Ev)
    (h : ∀ t, t = .cluster ∨ t = .endpoint ∨ t = .listener ∨ t = .route ∨ t = .nameTable → primed cfg t es = true) :
    (Client.run cfg es).isInitialized p = true :=
  (C64_initialized cfg p es).mpr ⟨fun _ => h _ (by simp), fun _ => h _ (by simp), fun _ => h _ (by simp),
    fun _ => h _ (by simp), fun _ => h _ (by simp)⟩

example : ∀ t ∈ [RType.cluster, .endpoint, .listener, .route, .nameTable], primed sotwCfg t exFull = true := by decide +kernel

end Verif.Ads
