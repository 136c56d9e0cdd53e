import Verif.Kafka.Gen.Messages
/- Generated by tools/extract_headers.py from components/kafka-protocol-go/pkg/{request,response}/header.go and
pkg/protocol/messages/requests.go. Do not edit. -/
namespace Verif.Kafka.Gen
open Verif Verif.Kafka

/-- one `case` of a headerVersion switch: early returns `if apiVersion >= n` (`ge`) / `== n`, then the final return -/
inductive HCond where | ge (n : Int) | eq (n : Int)
def HCond.holds : HCond → Int → Bool
  | .ge n, v => decide (n ≤ v)
  | .eq n, v => decide (v = n)
structure HCase where
  key : Int
  early : List (HCond × Int)
  dflt : Int

/-- the switch: the case of the key, its first early return that applies; −1 for an unknown key -/
def hswitch (t : List HCase) (k v : Int) : Int :=
  match t.find? (fun c => c.key == k) with
  | none => -1
  | some c => match c.early.find? (fun p => p.1.holds v) with
    | some p => p.2
    | none => c.dflt

/-- components/kafka-protocol-go/pkg/request/header.go:20-305 -/
def requestHeaderTable : List HCase := [
  ⟨0, [(.ge 9, 2)], 1⟩,
  ⟨1, [(.ge 12, 2)], 1⟩,
  ⟨2, [(.ge 6, 2)], 1⟩,
  ⟨3, [(.ge 9, 2)], 1⟩,
  ⟨4, [(.ge 4, 2)], 1⟩,
  ⟨5, [(.ge 2, 2)], 1⟩,
  ⟨6, [(.ge 6, 2)], 1⟩,
  ⟨7, [(.eq 0, 0), (.ge 3, 2)], 1⟩,
  ⟨8, [(.ge 8, 2)], 1⟩,
  ⟨9, [(.ge 6, 2)], 1⟩,
  ⟨10, [(.ge 3, 2)], 1⟩,
  ⟨11, [(.ge 6, 2)], 1⟩,
  ⟨12, [(.ge 4, 2)], 1⟩,
  ⟨13, [(.ge 4, 2)], 1⟩,
  ⟨14, [(.ge 4, 2)], 1⟩,
  ⟨15, [(.ge 5, 2)], 1⟩,
  ⟨16, [(.ge 3, 2)], 1⟩,
  ⟨17, [], 1⟩,
  ⟨18, [(.ge 3, 2)], 1⟩,
  ⟨19, [(.ge 5, 2)], 1⟩,
  ⟨20, [(.ge 4, 2)], 1⟩,
  ⟨21, [(.ge 2, 2)], 1⟩,
  ⟨22, [(.ge 2, 2)], 1⟩,
  ⟨23, [(.ge 4, 2)], 1⟩,
  ⟨24, [(.ge 3, 2)], 1⟩,
  ⟨25, [(.ge 3, 2)], 1⟩,
  ⟨26, [(.ge 3, 2)], 1⟩,
  ⟨27, [(.ge 1, 2)], 1⟩,
  ⟨28, [(.ge 3, 2)], 1⟩,
  ⟨29, [(.ge 2, 2)], 1⟩,
  ⟨30, [(.ge 2, 2)], 1⟩,
  ⟨31, [(.ge 2, 2)], 1⟩,
  ⟨32, [(.ge 4, 2)], 1⟩,
  ⟨33, [(.ge 2, 2)], 1⟩,
  ⟨34, [(.ge 2, 2)], 1⟩,
  ⟨35, [(.ge 2, 2)], 1⟩,
  ⟨36, [(.ge 2, 2)], 1⟩,
  ⟨37, [(.ge 2, 2)], 1⟩,
  ⟨38, [(.ge 2, 2)], 1⟩,
  ⟨39, [(.ge 2, 2)], 1⟩,
  ⟨40, [(.ge 2, 2)], 1⟩,
  ⟨41, [(.ge 2, 2)], 1⟩,
  ⟨42, [(.ge 2, 2)], 1⟩,
  ⟨43, [(.ge 2, 2)], 1⟩,
  ⟨44, [(.ge 1, 2)], 1⟩,
  ⟨45, [], 2⟩,
  ⟨46, [], 2⟩,
  ⟨47, [], 1⟩,
  ⟨48, [(.ge 1, 2)], 1⟩,
  ⟨49, [(.ge 1, 2)], 1⟩,
  ⟨50, [], 2⟩,
  ⟨51, [], 2⟩,
  ⟨52, [], 2⟩,
  ⟨53, [], 1⟩,
  ⟨54, [], 1⟩,
  ⟨55, [], 2⟩,
  ⟨56, [], 2⟩,
  ⟨57, [], 2⟩,
  ⟨58, [], 2⟩,
  ⟨59, [], 2⟩,
  ⟨60, [], 2⟩,
  ⟨61, [], 2⟩,
  ⟨62, [], 2⟩,
  ⟨63, [], 2⟩,
  ⟨64, [], 2⟩,
  ⟨65, [], 2⟩,
  ⟨66, [], 2⟩,
  ⟨67, [], 2⟩]

/-- components/kafka-protocol-go/pkg/response/header.go:20-298 -/
def responseHeaderTable : List HCase := [
  ⟨0, [(.ge 9, 1)], 0⟩,
  ⟨1, [(.ge 12, 1)], 0⟩,
  ⟨2, [(.ge 6, 1)], 0⟩,
  ⟨3, [(.ge 9, 1)], 0⟩,
  ⟨4, [(.ge 4, 1)], 0⟩,
  ⟨5, [(.ge 2, 1)], 0⟩,
  ⟨6, [(.ge 6, 1)], 0⟩,
  ⟨7, [(.ge 3, 1)], 0⟩,
  ⟨8, [(.ge 8, 1)], 0⟩,
  ⟨9, [(.ge 6, 1)], 0⟩,
  ⟨10, [(.ge 3, 1)], 0⟩,
  ⟨11, [(.ge 6, 1)], 0⟩,
  ⟨12, [(.ge 4, 1)], 0⟩,
  ⟨13, [(.ge 4, 1)], 0⟩,
  ⟨14, [(.ge 4, 1)], 0⟩,
  ⟨15, [(.ge 5, 1)], 0⟩,
  ⟨16, [(.ge 3, 1)], 0⟩,
  ⟨17, [], 0⟩,
  ⟨18, [], 0⟩,
  ⟨19, [(.ge 5, 1)], 0⟩,
  ⟨20, [(.ge 4, 1)], 0⟩,
  ⟨21, [(.ge 2, 1)], 0⟩,
  ⟨22, [(.ge 2, 1)], 0⟩,
  ⟨23, [(.ge 4, 1)], 0⟩,
  ⟨24, [(.ge 3, 1)], 0⟩,
  ⟨25, [(.ge 3, 1)], 0⟩,
  ⟨26, [(.ge 3, 1)], 0⟩,
  ⟨27, [(.ge 1, 1)], 0⟩,
  ⟨28, [(.ge 3, 1)], 0⟩,
  ⟨29, [(.ge 2, 1)], 0⟩,
  ⟨30, [(.ge 2, 1)], 0⟩,
  ⟨31, [(.ge 2, 1)], 0⟩,
  ⟨32, [(.ge 4, 1)], 0⟩,
  ⟨33, [(.ge 2, 1)], 0⟩,
  ⟨34, [(.ge 2, 1)], 0⟩,
  ⟨35, [(.ge 2, 1)], 0⟩,
  ⟨36, [(.ge 2, 1)], 0⟩,
  ⟨37, [(.ge 2, 1)], 0⟩,
  ⟨38, [(.ge 2, 1)], 0⟩,
  ⟨39, [(.ge 2, 1)], 0⟩,
  ⟨40, [(.ge 2, 1)], 0⟩,
  ⟨41, [(.ge 2, 1)], 0⟩,
  ⟨42, [(.ge 2, 1)], 0⟩,
  ⟨43, [(.ge 2, 1)], 0⟩,
  ⟨44, [(.ge 1, 1)], 0⟩,
  ⟨45, [], 1⟩,
  ⟨46, [], 1⟩,
  ⟨47, [], 0⟩,
  ⟨48, [(.ge 1, 1)], 0⟩,
  ⟨49, [(.ge 1, 1)], 0⟩,
  ⟨50, [], 1⟩,
  ⟨51, [], 1⟩,
  ⟨52, [], 1⟩,
  ⟨53, [], 0⟩,
  ⟨54, [], 0⟩,
  ⟨55, [], 1⟩,
  ⟨56, [], 1⟩,
  ⟨57, [], 1⟩,
  ⟨58, [], 1⟩,
  ⟨59, [], 1⟩,
  ⟨60, [], 1⟩,
  ⟨61, [], 1⟩,
  ⟨62, [], 1⟩,
  ⟨63, [], 1⟩,
  ⟨64, [], 1⟩,
  ⟨65, [], 1⟩,
  ⟨66, [], 1⟩,
  ⟨67, [], 1⟩]

/-- components/kafka-protocol-go/pkg/protocol/messages/requests.go:95 `NewRequest`: the struct created for each key -/
def newRequestTable : List (Int × Entry) := [
  (0, e_produce_Request),
  (1, e_fetch_Request),
  (2, e_listoffsets_Request),
  (3, e_metadata_Request),
  (4, e_leaderandisr_Request),
  (5, e_stopreplica_Request),
  (6, e_updatemetadata_Request),
  (7, e_controlledshutdown_Request),
  (8, e_offsetcommit_Request),
  (9, e_offsetfetch_Request),
  (10, e_findcoordinator_Request),
  (11, e_joingroup_Request),
  (12, e_heartbeat_Request),
  (13, e_leavegroup_Request),
  (14, e_syncgroup_Request),
  (15, e_describegroups_Request),
  (16, e_listgroups_Request),
  (17, e_saslhandshake_Request),
  (18, e_apiversions_Request),
  (19, e_createtopics_Request),
  (20, e_deletetopics_Request),
  (21, e_deleterecords_Request),
  (22, e_initproducerid_Request),
  (23, e_offsetforleaderepoch_Request),
  (24, e_addpartitionstotxn_Request),
  (25, e_addoffsetstotxn_Request),
  (26, e_endtxn_Request),
  (27, e_writetxnmarkers_Request),
  (28, e_txnoffsetcommit_Request),
  (29, e_describeacls_Request),
  (30, e_createacls_Request),
  (31, e_deleteacls_Request),
  (32, e_describeconfigs_Request),
  (33, e_alterconfigs_Request),
  (34, e_alterreplicalogdirs_Request),
  (35, e_describelogdirs_Request),
  (36, e_saslauthenticate_Request),
  (37, e_createpartitions_Request),
  (38, e_createdelegationtoken_Request),
  (39, e_renewdelegationtoken_Request),
  (40, e_expiredelegationtoken_Request),
  (41, e_describedelegationtoken_Request),
  (42, e_deletegroups_Request),
  (43, e_electleaders_Request),
  (44, e_incrementalalterconfigs_Request),
  (45, e_alterpartitionreassignments_Request),
  (46, e_listpartitionreassignments_Request),
  (47, e_offsetdelete_Request),
  (48, e_describeclientquotas_Request),
  (49, e_alterclientquotas_Request),
  (50, e_describeuserscramcredentials_Request),
  (51, e_alteruserscramcredentials_Request),
  (52, e_vote_Request),
  (53, e_beginquorumepoch_Request),
  (54, e_endquorumepoch_Request),
  (55, e_describequorum_Request),
  (56, e_alterpartition_Request),
  (57, e_updatefeatures_Request),
  (58, e_envelope_Request),
  (59, e_fetchsnapshot_Request),
  (60, e_describecluster_Request),
  (61, e_describeproducers_Request),
  (62, e_brokerregistration_Request),
  (63, e_brokerheartbeat_Request),
  (64, e_unregisterbroker_Request),
  (65, e_describetransactions_Request),
  (66, e_listtransactions_Request),
  (67, e_allocateproducerids_Request)]

/-- components/kafka-protocol-go/pkg/protocol/messages/requests.go:238 `NewResponse`: the struct created for each key -/
def newResponseTable : List (Int × Entry) := [
  (0, e_produce_Response),
  (1, e_fetch_Response),
  (2, e_listoffsets_Response),
  (3, e_metadata_Response),
  (4, e_leaderandisr_Response),
  (5, e_stopreplica_Response),
  (6, e_updatemetadata_Response),
  (7, e_controlledshutdown_Response),
  (8, e_offsetcommit_Response),
  (9, e_offsetfetch_Response),
  (10, e_findcoordinator_Response),
  (11, e_joingroup_Response),
  (12, e_heartbeat_Response),
  (13, e_leavegroup_Response),
  (14, e_syncgroup_Response),
  (15, e_describegroups_Response),
  (16, e_listgroups_Response),
  (17, e_saslhandshake_Response),
  (18, e_apiversions_Response),
  (19, e_createtopics_Response),
  (20, e_deletetopics_Response),
  (21, e_deleterecords_Response),
  (22, e_initproducerid_Response),
  (23, e_offsetforleaderepoch_Response),
  (24, e_addpartitionstotxn_Response),
  (25, e_addoffsetstotxn_Response),
  (26, e_endtxn_Response),
  (27, e_writetxnmarkers_Response),
  (28, e_txnoffsetcommit_Response),
  (29, e_describeacls_Response),
  (30, e_createacls_Response),
  (31, e_deleteacls_Response),
  (32, e_describeconfigs_Response),
  (33, e_alterconfigs_Response),
  (34, e_alterreplicalogdirs_Response),
  (35, e_describelogdirs_Response),
  (36, e_saslauthenticate_Response),
  (37, e_createpartitions_Response),
  (38, e_createdelegationtoken_Response),
  (39, e_renewdelegationtoken_Response),
  (40, e_expiredelegationtoken_Response),
  (41, e_describedelegationtoken_Response),
  (42, e_deletegroups_Response),
  (43, e_electleaders_Response),
  (44, e_incrementalalterconfigs_Response),
  (45, e_alterpartitionreassignments_Response),
  (46, e_listpartitionreassignments_Response),
  (47, e_offsetdelete_Response),
  (48, e_describeclientquotas_Response),
  (49, e_alterclientquotas_Response),
  (50, e_describeuserscramcredentials_Response),
  (51, e_alteruserscramcredentials_Response),
  (52, e_vote_Response),
  (53, e_beginquorumepoch_Response),
  (54, e_endquorumepoch_Response),
  (55, e_describequorum_Response),
  (56, e_alterpartition_Response),
  (57, e_updatefeatures_Response),
  (58, e_envelope_Response),
  (59, e_fetchsnapshot_Response),
  (60, e_describecluster_Response),
  (61, e_describeproducers_Response),
  (62, e_brokerregistration_Response),
  (63, e_brokerheartbeat_Response),
  (64, e_unregisterbroker_Response),
  (65, e_describetransactions_Response),
  (66, e_listtransactions_Response),
  (67, e_allocateproducerids_Response)]

end Verif.Kafka.Gen
