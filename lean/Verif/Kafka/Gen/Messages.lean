import Verif.Kafka.Schema
/- Generated by tools/extract_messages.py from components/kafka-protocol-go/pkg/protocol/messages. Do not edit. -/
namespace Verif.Kafka.Gen
open Verif.Kafka

/-- one advertised message: api key, request or response, advertised versions, the struct -/
structure Entry where
  apiKey : Int
  isRequest : Bool
  lo : Int
  hi : Int
  msg : Msg

/-- components/kafka-protocol-go/pkg/protocol/messages/addoffsetstotxn/request.go `Request` -/
def s_addoffsetstotxn_Request : Sch :=
  .prim { lo := 0, hi := 32767, flo := 3, fhi := 32767, nlo := 0, nhi := 0 } false (.str) .none (   -- transactionalId
  .prim { lo := 0, hi := 32767, flo := 3, fhi := 32767, nlo := 0, nhi := 0 } false (.int 8) .none (   -- producerId
  .prim { lo := 0, hi := 32767, flo := 3, fhi := 32767, nlo := 0, nhi := 0 } false (.int 2) .none (   -- producerEpoch
  .prim { lo := 0, hi := 32767, flo := 3, fhi := 32767, nlo := 0, nhi := 0 } false (.str) .none (   -- groupId
  .nil))))

/-- components/kafka-protocol-go/pkg/protocol/messages/addoffsetstotxn/response.go `Response` -/
def s_addoffsetstotxn_Response : Sch :=
  .prim { lo := 0, hi := 32767, flo := 3, fhi := 32767, nlo := 0, nhi := 0 } false (.int 4) .none (   -- throttleTimeMs
  .prim { lo := 0, hi := 32767, flo := 3, fhi := 32767, nlo := 0, nhi := 0 } false (.int 2) .none (   -- errorCode
  .nil))

/-- components/kafka-protocol-go/pkg/protocol/messages/addpartitionstotxn/request/addpartitionstotxntopic.go `AddPartitionsToTxnTopic` -/
def s_addpartitionstotxn_request_AddPartitionsToTxnTopic : Sch :=
  .prim { lo := 0, hi := 32767, flo := 3, fhi := 32767, nlo := 0, nhi := 0 } false (.str) .none (   -- name
  .arr { lo := 0, hi := 32767, flo := 3, fhi := 32767, nlo := 0, nhi := 0 } false (.int 4) (   -- partitions
  .nil))

/-- components/kafka-protocol-go/pkg/protocol/messages/addpartitionstotxn/request.go `Request` -/
def s_addpartitionstotxn_Request : Sch :=
  .prim { lo := 0, hi := 32767, flo := 3, fhi := 32767, nlo := 0, nhi := 0 } false (.str) .none (   -- transactionalId
  .prim { lo := 0, hi := 32767, flo := 3, fhi := 32767, nlo := 0, nhi := 0 } false (.int 8) .none (   -- producerId
  .prim { lo := 0, hi := 32767, flo := 3, fhi := 32767, nlo := 0, nhi := 0 } false (.int 2) .none (   -- producerEpoch
  .arrS { lo := 0, hi := 32767, flo := 3, fhi := 32767, nlo := 0, nhi := 0 } false (3) (32767) s_addpartitionstotxn_request_AddPartitionsToTxnTopic (   -- topics
  .nil))))

/-- components/kafka-protocol-go/pkg/protocol/messages/addpartitionstotxn/response/addpartitionstotxntopicresult/addpartitionstotxnpartitionresult.go `AddPartitionsToTxnPartitionResult` -/
def s_addpartitionstotxn_response_addpartitionstotxntopicresult_AddPartitionsToTxnPartitionResult : Sch :=
  .prim { lo := 0, hi := 32767, flo := 3, fhi := 32767, nlo := 0, nhi := 0 } false (.int 4) .none (   -- partitionIndex
  .prim { lo := 0, hi := 32767, flo := 3, fhi := 32767, nlo := 0, nhi := 0 } false (.int 2) .none (   -- errorCode
  .nil))

/-- components/kafka-protocol-go/pkg/protocol/messages/addpartitionstotxn/response/addpartitionstotxntopicresult.go `AddPartitionsToTxnTopicResult` -/
def s_addpartitionstotxn_response_AddPartitionsToTxnTopicResult : Sch :=
  .prim { lo := 0, hi := 32767, flo := 3, fhi := 32767, nlo := 0, nhi := 0 } false (.str) .none (   -- name
  .arrS { lo := 0, hi := 32767, flo := 3, fhi := 32767, nlo := 0, nhi := 0 } false (3) (32767) s_addpartitionstotxn_response_addpartitionstotxntopicresult_AddPartitionsToTxnPartitionResult (   -- results
  .nil))

/-- components/kafka-protocol-go/pkg/protocol/messages/addpartitionstotxn/response.go `Response` -/
def s_addpartitionstotxn_Response : Sch :=
  .prim { lo := 0, hi := 32767, flo := 3, fhi := 32767, nlo := 0, nhi := 0 } false (.int 4) .none (   -- throttleTimeMs
  .arrS { lo := 0, hi := 32767, flo := 3, fhi := 32767, nlo := 0, nhi := 0 } false (3) (32767) s_addpartitionstotxn_response_AddPartitionsToTxnTopicResult (   -- results
  .nil))

/-- components/kafka-protocol-go/pkg/protocol/messages/allocateproducerids/request.go `Request` -/
def s_allocateproducerids_Request : Sch :=
  .prim { lo := 0, hi := 32767, flo := 0, fhi := 32767, nlo := 0, nhi := 0 } false (.int 4) .none (   -- brokerId
  .prim { lo := 0, hi := 32767, flo := 0, fhi := 32767, nlo := 0, nhi := 0 } false (.int 8) (.int (-1)) (   -- brokerEpoch
  .nil))

/-- components/kafka-protocol-go/pkg/protocol/messages/allocateproducerids/response.go `Response` -/
def s_allocateproducerids_Response : Sch :=
  .prim { lo := 0, hi := 32767, flo := 0, fhi := 32767, nlo := 0, nhi := 0 } false (.int 4) .none (   -- throttleTimeMs
  .prim { lo := 0, hi := 32767, flo := 0, fhi := 32767, nlo := 0, nhi := 0 } false (.int 2) .none (   -- errorCode
  .prim { lo := 0, hi := 32767, flo := 0, fhi := 32767, nlo := 0, nhi := 0 } false (.int 8) .none (   -- producerIdStart
  .prim { lo := 0, hi := 32767, flo := 0, fhi := 32767, nlo := 0, nhi := 0 } false (.int 4) .none (   -- producerIdLen
  .nil))))

/-- components/kafka-protocol-go/pkg/protocol/messages/alterclientquotas/request/entrydata/entitydata.go `EntityData` -/
def s_alterclientquotas_request_entrydata_EntityData : Sch :=
  .prim { lo := 0, hi := 32767, flo := 1, fhi := 32767, nlo := 0, nhi := 0 } false (.str) .none (   -- entityType
  .prim { lo := 0, hi := 32767, flo := 1, fhi := 32767, nlo := 0, nhi := 32767 } false (.str) .none (   -- entityName
  .nil))

/-- components/kafka-protocol-go/pkg/protocol/messages/alterclientquotas/request/entrydata/opdata.go `OpData` -/
def s_alterclientquotas_request_entrydata_OpData : Sch :=
  .prim { lo := 0, hi := 32767, flo := 1, fhi := 32767, nlo := 0, nhi := 0 } false (.str) .none (   -- key
  .prim { lo := 0, hi := 32767, flo := 1, fhi := 32767, nlo := 0, nhi := 0 } false (.f64) .none (   -- value
  .prim { lo := 0, hi := 32767, flo := 1, fhi := 32767, nlo := 0, nhi := 0 } false (.bool) .none (   -- remove
  .nil)))

/-- components/kafka-protocol-go/pkg/protocol/messages/alterclientquotas/request/entrydata.go `EntryData` -/
def s_alterclientquotas_request_EntryData : Sch :=
  .arrS { lo := 0, hi := 32767, flo := 1, fhi := 32767, nlo := 0, nhi := 0 } false (1) (32767) s_alterclientquotas_request_entrydata_EntityData (   -- entity
  .arrS { lo := 0, hi := 32767, flo := 1, fhi := 32767, nlo := 0, nhi := 0 } false (1) (32767) s_alterclientquotas_request_entrydata_OpData (   -- ops
  .nil))

/-- components/kafka-protocol-go/pkg/protocol/messages/alterclientquotas/request.go `Request` -/
def s_alterclientquotas_Request : Sch :=
  .arrS { lo := 0, hi := 32767, flo := 1, fhi := 32767, nlo := 0, nhi := 0 } false (1) (32767) s_alterclientquotas_request_EntryData (   -- entries
  .prim { lo := 0, hi := 32767, flo := 1, fhi := 32767, nlo := 0, nhi := 0 } false (.bool) .none (   -- validateOnly
  .nil))

/-- components/kafka-protocol-go/pkg/protocol/messages/alterclientquotas/response/entrydata/entitydata.go `EntityData` -/
def s_alterclientquotas_response_entrydata_EntityData : Sch :=
  .prim { lo := 0, hi := 32767, flo := 1, fhi := 32767, nlo := 0, nhi := 0 } false (.str) .none (   -- entityType
  .prim { lo := 0, hi := 32767, flo := 1, fhi := 32767, nlo := 0, nhi := 32767 } false (.str) .none (   -- entityName
  .nil))

/-- components/kafka-protocol-go/pkg/protocol/messages/alterclientquotas/response/entrydata.go `EntryData` -/
def s_alterclientquotas_response_EntryData : Sch :=
  .prim { lo := 0, hi := 32767, flo := 1, fhi := 32767, nlo := 0, nhi := 0 } false (.int 2) .none (   -- errorCode
  .prim { lo := 0, hi := 32767, flo := 1, fhi := 32767, nlo := 0, nhi := 32767 } false (.str) .none (   -- errorMessage
  .arrS { lo := 0, hi := 32767, flo := 1, fhi := 32767, nlo := 0, nhi := 0 } false (1) (32767) s_alterclientquotas_response_entrydata_EntityData (   -- entity
  .nil)))

/-- components/kafka-protocol-go/pkg/protocol/messages/alterclientquotas/response.go `Response` -/
def s_alterclientquotas_Response : Sch :=
  .prim { lo := 0, hi := 32767, flo := 1, fhi := 32767, nlo := 0, nhi := 0 } false (.int 4) .none (   -- throttleTimeMs
  .arrS { lo := 0, hi := 32767, flo := 1, fhi := 32767, nlo := 0, nhi := 0 } false (1) (32767) s_alterclientquotas_response_EntryData (   -- entries
  .nil))

/-- components/kafka-protocol-go/pkg/protocol/messages/alterconfigs/request/alterconfigsresource/alterableconfig.go `AlterableConfig` -/
def s_alterconfigs_request_alterconfigsresource_AlterableConfig : Sch :=
  .prim { lo := 0, hi := 32767, flo := 2, fhi := 32767, nlo := 0, nhi := 0 } false (.str) .none (   -- name
  .prim { lo := 0, hi := 32767, flo := 2, fhi := 32767, nlo := 0, nhi := 32767 } false (.str) .none (   -- value
  .nil))

/-- components/kafka-protocol-go/pkg/protocol/messages/alterconfigs/request/alterconfigsresource.go `AlterConfigsResource` -/
def s_alterconfigs_request_AlterConfigsResource : Sch :=
  .prim { lo := 0, hi := 32767, flo := 2, fhi := 32767, nlo := 0, nhi := 0 } false (.int 1) .none (   -- resourceType
  .prim { lo := 0, hi := 32767, flo := 2, fhi := 32767, nlo := 0, nhi := 0 } false (.str) .none (   -- resourceName
  .arrS { lo := 0, hi := 32767, flo := 2, fhi := 32767, nlo := 0, nhi := 0 } false (2) (32767) s_alterconfigs_request_alterconfigsresource_AlterableConfig (   -- configs
  .nil)))

/-- components/kafka-protocol-go/pkg/protocol/messages/alterconfigs/request.go `Request` -/
def s_alterconfigs_Request : Sch :=
  .arrS { lo := 0, hi := 32767, flo := 2, fhi := 32767, nlo := 0, nhi := 0 } false (2) (32767) s_alterconfigs_request_AlterConfigsResource (   -- resources
  .prim { lo := 0, hi := 32767, flo := 2, fhi := 32767, nlo := 0, nhi := 0 } false (.bool) .none (   -- validateOnly
  .nil))

/-- components/kafka-protocol-go/pkg/protocol/messages/alterconfigs/response/alterconfigsresourceresponse.go `AlterConfigsResourceResponse` -/
def s_alterconfigs_response_AlterConfigsResourceResponse : Sch :=
  .prim { lo := 0, hi := 32767, flo := 2, fhi := 32767, nlo := 0, nhi := 0 } false (.int 2) .none (   -- errorCode
  .prim { lo := 0, hi := 32767, flo := 2, fhi := 32767, nlo := 0, nhi := 32767 } false (.str) .none (   -- errorMessage
  .prim { lo := 0, hi := 32767, flo := 2, fhi := 32767, nlo := 0, nhi := 0 } false (.int 1) .none (   -- resourceType
  .prim { lo := 0, hi := 32767, flo := 2, fhi := 32767, nlo := 0, nhi := 0 } false (.str) .none (   -- resourceName
  .nil))))

/-- components/kafka-protocol-go/pkg/protocol/messages/alterconfigs/response.go `Response` -/
def s_alterconfigs_Response : Sch :=
  .prim { lo := 0, hi := 32767, flo := 2, fhi := 32767, nlo := 0, nhi := 0 } false (.int 4) .none (   -- throttleTimeMs
  .arrS { lo := 0, hi := 32767, flo := 2, fhi := 32767, nlo := 0, nhi := 0 } false (2) (32767) s_alterconfigs_response_AlterConfigsResourceResponse (   -- responses
  .nil))

/-- components/kafka-protocol-go/pkg/protocol/messages/alterpartition/request/topicdata/partitiondata.go `PartitionData` -/
def s_alterpartition_request_topicdata_PartitionData : Sch :=
  .prim { lo := 0, hi := 32767, flo := 0, fhi := 32767, nlo := 0, nhi := 0 } false (.int 4) .none (   -- partitionIndex
  .prim { lo := 0, hi := 32767, flo := 0, fhi := 32767, nlo := 0, nhi := 0 } false (.int 4) .none (   -- leaderEpoch
  .arr { lo := 0, hi := 32767, flo := 0, fhi := 32767, nlo := 0, nhi := 0 } false (.int 4) (   -- newIsr
  .prim { lo := 1, hi := 32767, flo := 0, fhi := 32767, nlo := 0, nhi := 0 } false (.int 1) .none (   -- leaderRecoveryState
  .prim { lo := 0, hi := 32767, flo := 0, fhi := 32767, nlo := 0, nhi := 0 } false (.int 4) .none (   -- partitionEpoch
  .nil)))))

/-- components/kafka-protocol-go/pkg/protocol/messages/alterpartition/request/topicdata.go `TopicData` -/
def s_alterpartition_request_TopicData : Sch :=
  .prim { lo := 0, hi := 1, flo := 0, fhi := 32767, nlo := 0, nhi := 0 } false (.str) .none (   -- topicName
  .prim { lo := 2, hi := 32767, flo := 0, fhi := 32767, nlo := 0, nhi := 0 } true (.uuid) .none (   -- topicId
  .arrS { lo := 0, hi := 32767, flo := 0, fhi := 32767, nlo := 0, nhi := 0 } false (0) (32767) s_alterpartition_request_topicdata_PartitionData (   -- partitions
  .nil)))

/-- components/kafka-protocol-go/pkg/protocol/messages/alterpartition/request.go `Request` -/
def s_alterpartition_Request : Sch :=
  .prim { lo := 0, hi := 32767, flo := 0, fhi := 32767, nlo := 0, nhi := 0 } false (.int 4) .none (   -- brokerId
  .prim { lo := 0, hi := 32767, flo := 0, fhi := 32767, nlo := 0, nhi := 0 } false (.int 8) (.int (-1)) (   -- brokerEpoch
  .arrS { lo := 0, hi := 32767, flo := 0, fhi := 32767, nlo := 0, nhi := 0 } false (0) (32767) s_alterpartition_request_TopicData (   -- topics
  .nil)))

/-- components/kafka-protocol-go/pkg/protocol/messages/alterpartition/response/topicdata/partitiondata.go `PartitionData` -/
def s_alterpartition_response_topicdata_PartitionData : Sch :=
  .prim { lo := 0, hi := 32767, flo := 0, fhi := 32767, nlo := 0, nhi := 0 } false (.int 4) .none (   -- partitionIndex
  .prim { lo := 0, hi := 32767, flo := 0, fhi := 32767, nlo := 0, nhi := 0 } false (.int 2) .none (   -- errorCode
  .prim { lo := 0, hi := 32767, flo := 0, fhi := 32767, nlo := 0, nhi := 0 } false (.int 4) .none (   -- leaderId
  .prim { lo := 0, hi := 32767, flo := 0, fhi := 32767, nlo := 0, nhi := 0 } false (.int 4) .none (   -- leaderEpoch
  .arr { lo := 0, hi := 32767, flo := 0, fhi := 32767, nlo := 0, nhi := 0 } false (.int 4) (   -- isr
  .prim { lo := 1, hi := 32767, flo := 0, fhi := 32767, nlo := 0, nhi := 0 } true (.int 1) .none (   -- leaderRecoveryState
  .prim { lo := 0, hi := 32767, flo := 0, fhi := 32767, nlo := 0, nhi := 0 } false (.int 4) .none (   -- partitionEpoch
  .nil)))))))

/-- components/kafka-protocol-go/pkg/protocol/messages/alterpartition/response/topicdata.go `TopicData` -/
def s_alterpartition_response_TopicData : Sch :=
  .prim { lo := 0, hi := 1, flo := 0, fhi := 32767, nlo := 0, nhi := 0 } false (.str) .none (   -- topicName
  .prim { lo := 2, hi := 32767, flo := 0, fhi := 32767, nlo := 0, nhi := 0 } true (.uuid) .none (   -- topicId
  .arrS { lo := 0, hi := 32767, flo := 0, fhi := 32767, nlo := 0, nhi := 0 } false (0) (32767) s_alterpartition_response_topicdata_PartitionData (   -- partitions
  .nil)))

/-- components/kafka-protocol-go/pkg/protocol/messages/alterpartition/response.go `Response` -/
def s_alterpartition_Response : Sch :=
  .prim { lo := 0, hi := 32767, flo := 0, fhi := 32767, nlo := 0, nhi := 0 } false (.int 4) .none (   -- throttleTimeMs
  .prim { lo := 0, hi := 32767, flo := 0, fhi := 32767, nlo := 0, nhi := 0 } false (.int 2) .none (   -- errorCode
  .arrS { lo := 0, hi := 32767, flo := 0, fhi := 32767, nlo := 0, nhi := 0 } false (0) (32767) s_alterpartition_response_TopicData (   -- topics
  .nil)))

/-- components/kafka-protocol-go/pkg/protocol/messages/alterpartitionreassignments/request/reassignabletopic/reassignablepartition.go `ReassignablePartition` -/
def s_alterpartitionreassignments_request_reassignabletopic_ReassignablePartition : Sch :=
  .prim { lo := 0, hi := 32767, flo := 0, fhi := 32767, nlo := 0, nhi := 0 } false (.int 4) .none (   -- partitionIndex
  .arr { lo := 0, hi := 32767, flo := 0, fhi := 32767, nlo := 0, nhi := 32767 } false (.int 4) (   -- replicas
  .nil))

/-- components/kafka-protocol-go/pkg/protocol/messages/alterpartitionreassignments/request/reassignabletopic.go `ReassignableTopic` -/
def s_alterpartitionreassignments_request_ReassignableTopic : Sch :=
  .prim { lo := 0, hi := 32767, flo := 0, fhi := 32767, nlo := 0, nhi := 0 } false (.str) .none (   -- name
  .arrS { lo := 0, hi := 32767, flo := 0, fhi := 32767, nlo := 0, nhi := 0 } false (0) (32767) s_alterpartitionreassignments_request_reassignabletopic_ReassignablePartition (   -- partitions
  .nil))

/-- components/kafka-protocol-go/pkg/protocol/messages/alterpartitionreassignments/request.go `Request` -/
def s_alterpartitionreassignments_Request : Sch :=
  .prim { lo := 0, hi := 32767, flo := 0, fhi := 32767, nlo := 0, nhi := 0 } false (.int 4) (.int (60000)) (   -- timeoutMs
  .arrS { lo := 0, hi := 32767, flo := 0, fhi := 32767, nlo := 0, nhi := 0 } false (0) (32767) s_alterpartitionreassignments_request_ReassignableTopic (   -- topics
  .nil))

/-- components/kafka-protocol-go/pkg/protocol/messages/alterpartitionreassignments/response/reassignabletopicresponse/reassignablepartitionresponse.go `ReassignablePartitionResponse` -/
def s_alterpartitionreassignments_response_reassignabletopicresponse_ReassignablePartitionResponse : Sch :=
  .prim { lo := 0, hi := 32767, flo := 0, fhi := 32767, nlo := 0, nhi := 0 } false (.int 4) .none (   -- partitionIndex
  .prim { lo := 0, hi := 32767, flo := 0, fhi := 32767, nlo := 0, nhi := 0 } false (.int 2) .none (   -- errorCode
  .prim { lo := 0, hi := 32767, flo := 0, fhi := 32767, nlo := 0, nhi := 32767 } false (.str) .none (   -- errorMessage
  .nil)))

/-- components/kafka-protocol-go/pkg/protocol/messages/alterpartitionreassignments/response/reassignabletopicresponse.go `ReassignableTopicResponse` -/
def s_alterpartitionreassignments_response_ReassignableTopicResponse : Sch :=
  .prim { lo := 0, hi := 32767, flo := 0, fhi := 32767, nlo := 0, nhi := 0 } false (.str) .none (   -- name
  .arrS { lo := 0, hi := 32767, flo := 0, fhi := 32767, nlo := 0, nhi := 0 } false (0) (32767) s_alterpartitionreassignments_response_reassignabletopicresponse_ReassignablePartitionResponse (   -- partitions
  .nil))

/-- components/kafka-protocol-go/pkg/protocol/messages/alterpartitionreassignments/response.go `Response` -/
def s_alterpartitionreassignments_Response : Sch :=
  .prim { lo := 0, hi := 32767, flo := 0, fhi := 32767, nlo := 0, nhi := 0 } false (.int 4) .none (   -- throttleTimeMs
  .prim { lo := 0, hi := 32767, flo := 0, fhi := 32767, nlo := 0, nhi := 0 } false (.int 2) .none (   -- errorCode
  .prim { lo := 0, hi := 32767, flo := 0, fhi := 32767, nlo := 0, nhi := 32767 } false (.str) .none (   -- errorMessage
  .arrS { lo := 0, hi := 32767, flo := 0, fhi := 32767, nlo := 0, nhi := 0 } false (0) (32767) s_alterpartitionreassignments_response_ReassignableTopicResponse (   -- responses
  .nil))))

/-- components/kafka-protocol-go/pkg/protocol/messages/alterreplicalogdirs/request/alterreplicalogdir/alterreplicalogdirtopic.go `AlterReplicaLogDirTopic` -/
def s_alterreplicalogdirs_request_alterreplicalogdir_AlterReplicaLogDirTopic : Sch :=
  .prim { lo := 0, hi := 32767, flo := 2, fhi := 32767, nlo := 0, nhi := 0 } false (.str) .none (   -- name
  .arr { lo := 0, hi := 32767, flo := 2, fhi := 32767, nlo := 0, nhi := 0 } false (.int 4) (   -- partitions
  .nil))

/-- components/kafka-protocol-go/pkg/protocol/messages/alterreplicalogdirs/request/alterreplicalogdir.go `AlterReplicaLogDir` -/
def s_alterreplicalogdirs_request_AlterReplicaLogDir : Sch :=
  .prim { lo := 0, hi := 32767, flo := 2, fhi := 32767, nlo := 0, nhi := 0 } false (.str) .none (   -- path
  .arrS { lo := 0, hi := 32767, flo := 2, fhi := 32767, nlo := 0, nhi := 0 } false (2) (32767) s_alterreplicalogdirs_request_alterreplicalogdir_AlterReplicaLogDirTopic (   -- topics
  .nil))

/-- components/kafka-protocol-go/pkg/protocol/messages/alterreplicalogdirs/request.go `Request` -/
def s_alterreplicalogdirs_Request : Sch :=
  .arrS { lo := 0, hi := 32767, flo := 2, fhi := 32767, nlo := 0, nhi := 0 } false (2) (32767) s_alterreplicalogdirs_request_AlterReplicaLogDir (   -- dirs
  .nil)

/-- components/kafka-protocol-go/pkg/protocol/messages/alterreplicalogdirs/response/alterreplicalogdirtopicresult/alterreplicalogdirpartitionresult.go `AlterReplicaLogDirPartitionResult` -/
def s_alterreplicalogdirs_response_alterreplicalogdirtopicresult_AlterReplicaLogDirPartitionResult : Sch :=
  .prim { lo := 0, hi := 32767, flo := 2, fhi := 32767, nlo := 0, nhi := 0 } false (.int 4) .none (   -- partitionIndex
  .prim { lo := 0, hi := 32767, flo := 2, fhi := 32767, nlo := 0, nhi := 0 } false (.int 2) .none (   -- errorCode
  .nil))

/-- components/kafka-protocol-go/pkg/protocol/messages/alterreplicalogdirs/response/alterreplicalogdirtopicresult.go `AlterReplicaLogDirTopicResult` -/
def s_alterreplicalogdirs_response_AlterReplicaLogDirTopicResult : Sch :=
  .prim { lo := 0, hi := 32767, flo := 2, fhi := 32767, nlo := 0, nhi := 0 } false (.str) .none (   -- topicName
  .arrS { lo := 0, hi := 32767, flo := 2, fhi := 32767, nlo := 0, nhi := 0 } false (2) (32767) s_alterreplicalogdirs_response_alterreplicalogdirtopicresult_AlterReplicaLogDirPartitionResult (   -- partitions
  .nil))

/-- components/kafka-protocol-go/pkg/protocol/messages/alterreplicalogdirs/response.go `Response` -/
def s_alterreplicalogdirs_Response : Sch :=
  .prim { lo := 0, hi := 32767, flo := 2, fhi := 32767, nlo := 0, nhi := 0 } false (.int 4) .none (   -- throttleTimeMs
  .arrS { lo := 0, hi := 32767, flo := 2, fhi := 32767, nlo := 0, nhi := 0 } false (2) (32767) s_alterreplicalogdirs_response_AlterReplicaLogDirTopicResult (   -- results
  .nil))

/-- components/kafka-protocol-go/pkg/protocol/messages/alteruserscramcredentials/request/scramcredentialdeletion.go `ScramCredentialDeletion` -/
def s_alteruserscramcredentials_request_ScramCredentialDeletion : Sch :=
  .prim { lo := 0, hi := 32767, flo := 0, fhi := 32767, nlo := 0, nhi := 0 } false (.str) .none (   -- name
  .prim { lo := 0, hi := 32767, flo := 0, fhi := 32767, nlo := 0, nhi := 0 } false (.int 1) .none (   -- mechanism
  .nil))

/-- components/kafka-protocol-go/pkg/protocol/messages/alteruserscramcredentials/request/scramcredentialupsertion.go `ScramCredentialUpsertion` -/
def s_alteruserscramcredentials_request_ScramCredentialUpsertion : Sch :=
  .prim { lo := 0, hi := 32767, flo := 0, fhi := 32767, nlo := 0, nhi := 0 } false (.str) .none (   -- name
  .prim { lo := 0, hi := 32767, flo := 0, fhi := 32767, nlo := 0, nhi := 0 } false (.int 1) .none (   -- mechanism
  .prim { lo := 0, hi := 32767, flo := 0, fhi := 32767, nlo := 0, nhi := 0 } false (.int 4) .none (   -- iterations
  .prim { lo := 0, hi := 32767, flo := 0, fhi := 32767, nlo := 0, nhi := 0 } false (.bytes) .none (   -- salt
  .prim { lo := 0, hi := 32767, flo := 0, fhi := 32767, nlo := 0, nhi := 0 } false (.bytes) .none (   -- saltedPassword
  .nil)))))

/-- components/kafka-protocol-go/pkg/protocol/messages/alteruserscramcredentials/request.go `Request` -/
def s_alteruserscramcredentials_Request : Sch :=
  .arrS { lo := 0, hi := 32767, flo := 0, fhi := 32767, nlo := 0, nhi := 0 } false (0) (32767) s_alteruserscramcredentials_request_ScramCredentialDeletion (   -- deletions
  .arrS { lo := 0, hi := 32767, flo := 0, fhi := 32767, nlo := 0, nhi := 0 } false (0) (32767) s_alteruserscramcredentials_request_ScramCredentialUpsertion (   -- upsertions
  .nil))

/-- components/kafka-protocol-go/pkg/protocol/messages/alteruserscramcredentials/response/alteruserscramcredentialsresult.go `AlterUserScramCredentialsResult` -/
def s_alteruserscramcredentials_response_AlterUserScramCredentialsResult : Sch :=
  .prim { lo := 0, hi := 32767, flo := 0, fhi := 32767, nlo := 0, nhi := 0 } false (.str) .none (   -- user
  .prim { lo := 0, hi := 32767, flo := 0, fhi := 32767, nlo := 0, nhi := 0 } false (.int 2) .none (   -- errorCode
  .prim { lo := 0, hi := 32767, flo := 0, fhi := 32767, nlo := 0, nhi := 32767 } false (.str) .none (   -- errorMessage
  .nil)))

/-- components/kafka-protocol-go/pkg/protocol/messages/alteruserscramcredentials/response.go `Response` -/
def s_alteruserscramcredentials_Response : Sch :=
  .prim { lo := 0, hi := 32767, flo := 0, fhi := 32767, nlo := 0, nhi := 0 } false (.int 4) .none (   -- throttleTimeMs
  .arrS { lo := 0, hi := 32767, flo := 0, fhi := 32767, nlo := 0, nhi := 0 } false (0) (32767) s_alteruserscramcredentials_response_AlterUserScramCredentialsResult (   -- results
  .nil))

/-- components/kafka-protocol-go/pkg/protocol/messages/apiversions/request.go `Request` -/
def s_apiversions_Request : Sch :=
  .prim { lo := 3, hi := 32767, flo := 3, fhi := 32767, nlo := 0, nhi := 0 } true (.str) .none (   -- clientSoftwareName
  .prim { lo := 3, hi := 32767, flo := 3, fhi := 32767, nlo := 0, nhi := 0 } true (.str) .none (   -- clientSoftwareVersion
  .nil))

/-- components/kafka-protocol-go/pkg/protocol/messages/apiversions/response/apiversion.go `ApiVersion` -/
def s_apiversions_response_ApiVersion : Sch :=
  .prim { lo := 0, hi := 32767, flo := 3, fhi := 32767, nlo := 0, nhi := 0 } false (.int 2) .none (   -- apiKey
  .prim { lo := 0, hi := 32767, flo := 3, fhi := 32767, nlo := 0, nhi := 0 } false (.int 2) .none (   -- minVersion
  .prim { lo := 0, hi := 32767, flo := 3, fhi := 32767, nlo := 0, nhi := 0 } false (.int 2) .none (   -- maxVersion
  .nil)))

/-- components/kafka-protocol-go/pkg/protocol/messages/apiversions/response/supportedfeaturekey.go `SupportedFeatureKey` -/
def s_apiversions_response_SupportedFeatureKey : Sch :=
  .prim { lo := 3, hi := 32767, flo := 3, fhi := 32767, nlo := 0, nhi := 0 } false (.str) .none (   -- name
  .prim { lo := 3, hi := 32767, flo := 3, fhi := 32767, nlo := 0, nhi := 0 } false (.int 2) .none (   -- minVersion
  .prim { lo := 3, hi := 32767, flo := 3, fhi := 32767, nlo := 0, nhi := 0 } false (.int 2) .none (   -- maxVersion
  .nil)))

/-- components/kafka-protocol-go/pkg/protocol/messages/apiversions/response/finalizedfeaturekey.go `FinalizedFeatureKey` -/
def s_apiversions_response_FinalizedFeatureKey : Sch :=
  .prim { lo := 3, hi := 32767, flo := 3, fhi := 32767, nlo := 0, nhi := 0 } false (.str) .none (   -- name
  .prim { lo := 3, hi := 32767, flo := 3, fhi := 32767, nlo := 0, nhi := 0 } false (.int 2) .none (   -- maxVersionLevel
  .prim { lo := 3, hi := 32767, flo := 3, fhi := 32767, nlo := 0, nhi := 0 } false (.int 2) .none (   -- minVersionLevel
  .nil)))

/-- components/kafka-protocol-go/pkg/protocol/messages/apiversions/response.go `Response` -/
def s_apiversions_Response : Sch :=
  .prim { lo := 0, hi := 32767, flo := 3, fhi := 32767, nlo := 0, nhi := 0 } false (.int 2) .none (   -- errorCode
  .arrS { lo := 0, hi := 32767, flo := 3, fhi := 32767, nlo := 0, nhi := 0 } false (3) (32767) s_apiversions_response_ApiVersion (   -- apiKeys
  .prim { lo := 1, hi := 32767, flo := 3, fhi := 32767, nlo := 0, nhi := 0 } true (.int 4) .none (   -- throttleTimeMs
  .arrS { lo := 3, hi := 32767, flo := 3, fhi := 32767, nlo := 0, nhi := 0, tag := some 0, tlo := 3, thi := 32767 } true (3) (32767) s_apiversions_response_SupportedFeatureKey (   -- supportedFeatures
  .prim { lo := 3, hi := 32767, flo := 3, fhi := 32767, nlo := 0, nhi := 0, tag := some 1, tlo := 3, thi := 32767 } true (.int 8) (.int (-1)) (   -- finalizedFeaturesEpoch
  .arrS { lo := 3, hi := 32767, flo := 3, fhi := 32767, nlo := 0, nhi := 0, tag := some 2, tlo := 3, thi := 32767 } true (3) (32767) s_apiversions_response_FinalizedFeatureKey (   -- finalizedFeatures
  .prim { lo := 3, hi := 32767, flo := 3, fhi := 32767, nlo := 0, nhi := 0, tag := some 3, tlo := 3, thi := 32767 } true (.bool) .none (   -- zkMigrationReady
  .nil)))))))

/-- components/kafka-protocol-go/pkg/protocol/messages/beginquorumepoch/request/topicdata/partitiondata.go `PartitionData` -/
def s_beginquorumepoch_request_topicdata_PartitionData : Sch :=
  .prim { lo := 0, hi := 32767, flo := 32767, fhi := 32767, nlo := 0, nhi := 0 } false (.int 4) .none (   -- partitionIndex
  .prim { lo := 0, hi := 32767, flo := 32767, fhi := 32767, nlo := 0, nhi := 0 } false (.int 4) .none (   -- leaderId
  .prim { lo := 0, hi := 32767, flo := 32767, fhi := 32767, nlo := 0, nhi := 0 } false (.int 4) .none (   -- leaderEpoch
  .nil)))

/-- components/kafka-protocol-go/pkg/protocol/messages/beginquorumepoch/request/topicdata.go `TopicData` -/
def s_beginquorumepoch_request_TopicData : Sch :=
  .prim { lo := 0, hi := 32767, flo := 32767, fhi := 32767, nlo := 0, nhi := 0 } false (.str) .none (   -- topicName
  .arrS { lo := 0, hi := 32767, flo := 32767, fhi := 32767, nlo := 0, nhi := 0 } false (32767) (32767) s_beginquorumepoch_request_topicdata_PartitionData (   -- partitions
  .nil))

/-- components/kafka-protocol-go/pkg/protocol/messages/beginquorumepoch/request.go `Request` -/
def s_beginquorumepoch_Request : Sch :=
  .prim { lo := 0, hi := 32767, flo := 32767, fhi := 32767, nlo := 0, nhi := 32767 } false (.str) (.str [110, 117, 108, 108]) (   -- clusterId
  .arrS { lo := 0, hi := 32767, flo := 32767, fhi := 32767, nlo := 0, nhi := 0 } false (32767) (32767) s_beginquorumepoch_request_TopicData (   -- topics
  .nil))

/-- components/kafka-protocol-go/pkg/protocol/messages/beginquorumepoch/response/topicdata/partitiondata.go `PartitionData` -/
def s_beginquorumepoch_response_topicdata_PartitionData : Sch :=
  .prim { lo := 0, hi := 32767, flo := 32767, fhi := 32767, nlo := 0, nhi := 0 } false (.int 4) .none (   -- partitionIndex
  .prim { lo := 0, hi := 32767, flo := 32767, fhi := 32767, nlo := 0, nhi := 0 } false (.int 2) .none (   -- errorCode
  .prim { lo := 0, hi := 32767, flo := 32767, fhi := 32767, nlo := 0, nhi := 0 } false (.int 4) .none (   -- leaderId
  .prim { lo := 0, hi := 32767, flo := 32767, fhi := 32767, nlo := 0, nhi := 0 } false (.int 4) .none (   -- leaderEpoch
  .nil))))

/-- components/kafka-protocol-go/pkg/protocol/messages/beginquorumepoch/response/topicdata.go `TopicData` -/
def s_beginquorumepoch_response_TopicData : Sch :=
  .prim { lo := 0, hi := 32767, flo := 32767, fhi := 32767, nlo := 0, nhi := 0 } false (.str) .none (   -- topicName
  .arrS { lo := 0, hi := 32767, flo := 32767, fhi := 32767, nlo := 0, nhi := 0 } false (32767) (32767) s_beginquorumepoch_response_topicdata_PartitionData (   -- partitions
  .nil))

/-- components/kafka-protocol-go/pkg/protocol/messages/beginquorumepoch/response.go `Response` -/
def s_beginquorumepoch_Response : Sch :=
  .prim { lo := 0, hi := 32767, flo := 32767, fhi := 32767, nlo := 0, nhi := 0 } false (.int 2) .none (   -- errorCode
  .arrS { lo := 0, hi := 32767, flo := 32767, fhi := 32767, nlo := 0, nhi := 0 } false (32767) (32767) s_beginquorumepoch_response_TopicData (   -- topics
  .nil))

/-- components/kafka-protocol-go/pkg/protocol/messages/brokerheartbeat/request.go `Request` -/
def s_brokerheartbeat_Request : Sch :=
  .prim { lo := 0, hi := 32767, flo := 0, fhi := 32767, nlo := 0, nhi := 0 } false (.int 4) .none (   -- brokerId
  .prim { lo := 0, hi := 32767, flo := 0, fhi := 32767, nlo := 0, nhi := 0 } false (.int 8) (.int (-1)) (   -- brokerEpoch
  .prim { lo := 0, hi := 32767, flo := 0, fhi := 32767, nlo := 0, nhi := 0 } false (.int 8) .none (   -- currentMetadataOffset
  .prim { lo := 0, hi := 32767, flo := 0, fhi := 32767, nlo := 0, nhi := 0 } false (.bool) .none (   -- wantFence
  .prim { lo := 0, hi := 32767, flo := 0, fhi := 32767, nlo := 0, nhi := 0 } false (.bool) .none (   -- wantShutDown
  .nil)))))

/-- components/kafka-protocol-go/pkg/protocol/messages/brokerheartbeat/response.go `Response` -/
def s_brokerheartbeat_Response : Sch :=
  .prim { lo := 0, hi := 32767, flo := 0, fhi := 32767, nlo := 0, nhi := 0 } false (.int 4) .none (   -- throttleTimeMs
  .prim { lo := 0, hi := 32767, flo := 0, fhi := 32767, nlo := 0, nhi := 0 } false (.int 2) .none (   -- errorCode
  .prim { lo := 0, hi := 32767, flo := 0, fhi := 32767, nlo := 0, nhi := 0 } false (.bool) .none (   -- isCaughtUp
  .prim { lo := 0, hi := 32767, flo := 0, fhi := 32767, nlo := 0, nhi := 0 } false (.bool) (.bool true) (   -- isFenced
  .prim { lo := 0, hi := 32767, flo := 0, fhi := 32767, nlo := 0, nhi := 0 } false (.bool) .none (   -- shouldShutDown
  .nil)))))

/-- components/kafka-protocol-go/pkg/protocol/messages/brokerregistration/request/listener.go `Listener` -/
def s_brokerregistration_request_Listener : Sch :=
  .prim { lo := 0, hi := 32767, flo := 0, fhi := 32767, nlo := 0, nhi := 0 } false (.str) .none (   -- name
  .prim { lo := 0, hi := 32767, flo := 0, fhi := 32767, nlo := 0, nhi := 0 } false (.str) .none (   -- host
  .prim { lo := 0, hi := 32767, flo := 0, fhi := 32767, nlo := 0, nhi := 0 } false (.u16) .none (   -- port
  .prim { lo := 0, hi := 32767, flo := 0, fhi := 32767, nlo := 0, nhi := 0 } false (.int 2) .none (   -- securityProtocol
  .nil))))

/-- components/kafka-protocol-go/pkg/protocol/messages/brokerregistration/request/feature.go `Feature` -/
def s_brokerregistration_request_Feature : Sch :=
  .prim { lo := 0, hi := 32767, flo := 0, fhi := 32767, nlo := 0, nhi := 0 } false (.str) .none (   -- name
  .prim { lo := 0, hi := 32767, flo := 0, fhi := 32767, nlo := 0, nhi := 0 } false (.int 2) .none (   -- minSupportedVersion
  .prim { lo := 0, hi := 32767, flo := 0, fhi := 32767, nlo := 0, nhi := 0 } false (.int 2) .none (   -- maxSupportedVersion
  .nil)))

/-- components/kafka-protocol-go/pkg/protocol/messages/brokerregistration/request.go `Request` -/
def s_brokerregistration_Request : Sch :=
  .prim { lo := 0, hi := 32767, flo := 0, fhi := 32767, nlo := 0, nhi := 0 } false (.int 4) .none (   -- brokerId
  .prim { lo := 0, hi := 32767, flo := 0, fhi := 32767, nlo := 0, nhi := 0 } false (.str) .none (   -- clusterId
  .prim { lo := 0, hi := 32767, flo := 0, fhi := 32767, nlo := 0, nhi := 0 } false (.uuid) .none (   -- incarnationId
  .arrS { lo := 0, hi := 32767, flo := 0, fhi := 32767, nlo := 0, nhi := 0 } false (0) (32767) s_brokerregistration_request_Listener (   -- listeners
  .arrS { lo := 0, hi := 32767, flo := 0, fhi := 32767, nlo := 0, nhi := 0 } false (0) (32767) s_brokerregistration_request_Feature (   -- features
  .prim { lo := 0, hi := 32767, flo := 0, fhi := 32767, nlo := 0, nhi := 32767 } false (.str) .none (   -- rack
  .prim { lo := 1, hi := 32767, flo := 0, fhi := 32767, nlo := 0, nhi := 0 } false (.bool) .none (   -- isMigratingZkBroker
  .nil)))))))

/-- components/kafka-protocol-go/pkg/protocol/messages/brokerregistration/response.go `Response` -/
def s_brokerregistration_Response : Sch :=
  .prim { lo := 0, hi := 32767, flo := 0, fhi := 32767, nlo := 0, nhi := 0 } false (.int 4) .none (   -- throttleTimeMs
  .prim { lo := 0, hi := 32767, flo := 0, fhi := 32767, nlo := 0, nhi := 0 } false (.int 2) .none (   -- errorCode
  .prim { lo := 0, hi := 32767, flo := 0, fhi := 32767, nlo := 0, nhi := 0 } false (.int 8) (.int (-1)) (   -- brokerEpoch
  .nil)))

/-- components/kafka-protocol-go/pkg/protocol/messages/controlledshutdown/request.go `Request` -/
def s_controlledshutdown_Request : Sch :=
  .prim { lo := 0, hi := 32767, flo := 3, fhi := 32767, nlo := 0, nhi := 0 } false (.int 4) .none (   -- brokerId
  .prim { lo := 2, hi := 32767, flo := 3, fhi := 32767, nlo := 0, nhi := 0 } true (.int 8) (.int (-1)) (   -- brokerEpoch
  .nil))

/-- components/kafka-protocol-go/pkg/protocol/messages/controlledshutdown/response/remainingpartition.go `RemainingPartition` -/
def s_controlledshutdown_response_RemainingPartition : Sch :=
  .prim { lo := 0, hi := 32767, flo := 3, fhi := 32767, nlo := 0, nhi := 0 } false (.str) .none (   -- topicName
  .prim { lo := 0, hi := 32767, flo := 3, fhi := 32767, nlo := 0, nhi := 0 } false (.int 4) .none (   -- partitionIndex
  .nil))

/-- components/kafka-protocol-go/pkg/protocol/messages/controlledshutdown/response.go `Response` -/
def s_controlledshutdown_Response : Sch :=
  .prim { lo := 0, hi := 32767, flo := 3, fhi := 32767, nlo := 0, nhi := 0 } false (.int 2) .none (   -- errorCode
  .arrS { lo := 0, hi := 32767, flo := 3, fhi := 32767, nlo := 0, nhi := 0 } false (3) (32767) s_controlledshutdown_response_RemainingPartition (   -- remainingPartitions
  .nil))

/-- components/kafka-protocol-go/pkg/protocol/messages/createacls/request/aclcreation.go `AclCreation` -/
def s_createacls_request_AclCreation : Sch :=
  .prim { lo := 0, hi := 32767, flo := 2, fhi := 32767, nlo := 0, nhi := 0 } false (.int 1) .none (   -- resourceType
  .prim { lo := 0, hi := 32767, flo := 2, fhi := 32767, nlo := 0, nhi := 0 } false (.str) .none (   -- resourceName
  .prim { lo := 1, hi := 32767, flo := 2, fhi := 32767, nlo := 0, nhi := 0 } false (.int 1) (.int (3)) (   -- resourcePatternType
  .prim { lo := 0, hi := 32767, flo := 2, fhi := 32767, nlo := 0, nhi := 0 } false (.str) .none (   -- principal
  .prim { lo := 0, hi := 32767, flo := 2, fhi := 32767, nlo := 0, nhi := 0 } false (.str) .none (   -- host
  .prim { lo := 0, hi := 32767, flo := 2, fhi := 32767, nlo := 0, nhi := 0 } false (.int 1) .none (   -- operation
  .prim { lo := 0, hi := 32767, flo := 2, fhi := 32767, nlo := 0, nhi := 0 } false (.int 1) .none (   -- permissionType
  .nil)))))))

/-- components/kafka-protocol-go/pkg/protocol/messages/createacls/request.go `Request` -/
def s_createacls_Request : Sch :=
  .arrS { lo := 0, hi := 32767, flo := 2, fhi := 32767, nlo := 0, nhi := 0 } false (2) (32767) s_createacls_request_AclCreation (   -- creations
  .nil)

/-- components/kafka-protocol-go/pkg/protocol/messages/createacls/response/aclcreationresult.go `AclCreationResult` -/
def s_createacls_response_AclCreationResult : Sch :=
  .prim { lo := 0, hi := 32767, flo := 2, fhi := 32767, nlo := 0, nhi := 0 } false (.int 2) .none (   -- errorCode
  .prim { lo := 0, hi := 32767, flo := 2, fhi := 32767, nlo := 0, nhi := 32767 } false (.str) .none (   -- errorMessage
  .nil))

/-- components/kafka-protocol-go/pkg/protocol/messages/createacls/response.go `Response` -/
def s_createacls_Response : Sch :=
  .prim { lo := 0, hi := 32767, flo := 2, fhi := 32767, nlo := 0, nhi := 0 } false (.int 4) .none (   -- throttleTimeMs
  .arrS { lo := 0, hi := 32767, flo := 2, fhi := 32767, nlo := 0, nhi := 0 } false (2) (32767) s_createacls_response_AclCreationResult (   -- results
  .nil))

/-- components/kafka-protocol-go/pkg/protocol/messages/createdelegationtoken/request/creatablerenewers.go `CreatableRenewers` -/
def s_createdelegationtoken_request_CreatableRenewers : Sch :=
  .prim { lo := 0, hi := 32767, flo := 2, fhi := 32767, nlo := 0, nhi := 0 } false (.str) .none (   -- principalType
  .prim { lo := 0, hi := 32767, flo := 2, fhi := 32767, nlo := 0, nhi := 0 } false (.str) .none (   -- principalName
  .nil))

/-- components/kafka-protocol-go/pkg/protocol/messages/createdelegationtoken/request.go `Request` -/
def s_createdelegationtoken_Request : Sch :=
  .prim { lo := 3, hi := 32767, flo := 2, fhi := 32767, nlo := 3, nhi := 32767 } false (.str) .none (   -- ownerPrincipalType
  .prim { lo := 3, hi := 32767, flo := 2, fhi := 32767, nlo := 3, nhi := 32767 } false (.str) .none (   -- ownerPrincipalName
  .arrS { lo := 0, hi := 32767, flo := 2, fhi := 32767, nlo := 0, nhi := 0 } false (2) (32767) s_createdelegationtoken_request_CreatableRenewers (   -- renewers
  .prim { lo := 0, hi := 32767, flo := 2, fhi := 32767, nlo := 0, nhi := 0 } false (.int 8) .none (   -- maxLifetimeMs
  .nil))))

/-- components/kafka-protocol-go/pkg/protocol/messages/createdelegationtoken/response.go `Response` -/
def s_createdelegationtoken_Response : Sch :=
  .prim { lo := 0, hi := 32767, flo := 2, fhi := 32767, nlo := 0, nhi := 0 } false (.int 2) .none (   -- errorCode
  .prim { lo := 0, hi := 32767, flo := 2, fhi := 32767, nlo := 0, nhi := 0 } false (.str) .none (   -- principalType
  .prim { lo := 0, hi := 32767, flo := 2, fhi := 32767, nlo := 0, nhi := 0 } false (.str) .none (   -- principalName
  .prim { lo := 3, hi := 32767, flo := 2, fhi := 32767, nlo := 0, nhi := 0 } false (.str) .none (   -- tokenRequesterPrincipalType
  .prim { lo := 3, hi := 32767, flo := 2, fhi := 32767, nlo := 0, nhi := 0 } false (.str) .none (   -- tokenRequesterPrincipalName
  .prim { lo := 0, hi := 32767, flo := 2, fhi := 32767, nlo := 0, nhi := 0 } false (.int 8) .none (   -- issueTimestampMs
  .prim { lo := 0, hi := 32767, flo := 2, fhi := 32767, nlo := 0, nhi := 0 } false (.int 8) .none (   -- expiryTimestampMs
  .prim { lo := 0, hi := 32767, flo := 2, fhi := 32767, nlo := 0, nhi := 0 } false (.int 8) .none (   -- maxTimestampMs
  .prim { lo := 0, hi := 32767, flo := 2, fhi := 32767, nlo := 0, nhi := 0 } false (.str) .none (   -- tokenId
  .prim { lo := 0, hi := 32767, flo := 2, fhi := 32767, nlo := 0, nhi := 0 } false (.bytes) .none (   -- hmac
  .prim { lo := 0, hi := 32767, flo := 2, fhi := 32767, nlo := 0, nhi := 0 } false (.int 4) .none (   -- throttleTimeMs
  .nil)))))))))))

/-- components/kafka-protocol-go/pkg/protocol/messages/createpartitions/request/createpartitionstopic/createpartitionsassignment.go `CreatePartitionsAssignment` -/
def s_createpartitions_request_createpartitionstopic_CreatePartitionsAssignment : Sch :=
  .arr { lo := 0, hi := 32767, flo := 2, fhi := 32767, nlo := 0, nhi := 32767 } false (.int 4) (   -- brokerIds
  .nil)

/-- components/kafka-protocol-go/pkg/protocol/messages/createpartitions/request/createpartitionstopic.go `CreatePartitionsTopic` -/
def s_createpartitions_request_CreatePartitionsTopic : Sch :=
  .prim { lo := 0, hi := 32767, flo := 2, fhi := 32767, nlo := 0, nhi := 0 } false (.str) .none (   -- name
  .prim { lo := 0, hi := 32767, flo := 2, fhi := 32767, nlo := 0, nhi := 0 } false (.int 4) .none (   -- count
  .arrS { lo := 0, hi := 32767, flo := 2, fhi := 32767, nlo := 0, nhi := 32767 } false (2) (32767) s_createpartitions_request_createpartitionstopic_CreatePartitionsAssignment (   -- assignments
  .nil)))

/-- components/kafka-protocol-go/pkg/protocol/messages/createpartitions/request.go `Request` -/
def s_createpartitions_Request : Sch :=
  .arrS { lo := 0, hi := 32767, flo := 2, fhi := 32767, nlo := 0, nhi := 0 } false (2) (32767) s_createpartitions_request_CreatePartitionsTopic (   -- topics
  .prim { lo := 0, hi := 32767, flo := 2, fhi := 32767, nlo := 0, nhi := 0 } false (.int 4) .none (   -- timeoutMs
  .prim { lo := 0, hi := 32767, flo := 2, fhi := 32767, nlo := 0, nhi := 0 } false (.bool) .none (   -- validateOnly
  .nil)))

/-- components/kafka-protocol-go/pkg/protocol/messages/createpartitions/response/createpartitionstopicresult.go `CreatePartitionsTopicResult` -/
def s_createpartitions_response_CreatePartitionsTopicResult : Sch :=
  .prim { lo := 0, hi := 32767, flo := 2, fhi := 32767, nlo := 0, nhi := 0 } false (.str) .none (   -- name
  .prim { lo := 0, hi := 32767, flo := 2, fhi := 32767, nlo := 0, nhi := 0 } false (.int 2) .none (   -- errorCode
  .prim { lo := 0, hi := 32767, flo := 2, fhi := 32767, nlo := 0, nhi := 32767 } false (.str) (.str [110, 117, 108, 108]) (   -- errorMessage
  .nil)))

/-- components/kafka-protocol-go/pkg/protocol/messages/createpartitions/response.go `Response` -/
def s_createpartitions_Response : Sch :=
  .prim { lo := 0, hi := 32767, flo := 2, fhi := 32767, nlo := 0, nhi := 0 } false (.int 4) .none (   -- throttleTimeMs
  .arrS { lo := 0, hi := 32767, flo := 2, fhi := 32767, nlo := 0, nhi := 0 } false (2) (32767) s_createpartitions_response_CreatePartitionsTopicResult (   -- results
  .nil))

/-- components/kafka-protocol-go/pkg/protocol/messages/createtopics/request/creatabletopic/creatablereplicaassignment.go `CreatableReplicaAssignment` -/
def s_createtopics_request_creatabletopic_CreatableReplicaAssignment : Sch :=
  .prim { lo := 0, hi := 32767, flo := 5, fhi := 32767, nlo := 0, nhi := 0 } false (.int 4) .none (   -- partitionIndex
  .arr { lo := 0, hi := 32767, flo := 5, fhi := 32767, nlo := 0, nhi := 0 } false (.int 4) (   -- brokerIds
  .nil))

/-- components/kafka-protocol-go/pkg/protocol/messages/createtopics/request/creatabletopic/createabletopicconfig.go `CreateableTopicConfig` -/
def s_createtopics_request_creatabletopic_CreateableTopicConfig : Sch :=
  .prim { lo := 0, hi := 32767, flo := 5, fhi := 32767, nlo := 0, nhi := 0 } false (.str) .none (   -- name
  .prim { lo := 0, hi := 32767, flo := 5, fhi := 32767, nlo := 0, nhi := 32767 } false (.str) .none (   -- value
  .nil))

/-- components/kafka-protocol-go/pkg/protocol/messages/createtopics/request/creatabletopic.go `CreatableTopic` -/
def s_createtopics_request_CreatableTopic : Sch :=
  .prim { lo := 0, hi := 32767, flo := 5, fhi := 32767, nlo := 0, nhi := 0 } false (.str) .none (   -- name
  .prim { lo := 0, hi := 32767, flo := 5, fhi := 32767, nlo := 0, nhi := 0 } false (.int 4) .none (   -- numPartitions
  .prim { lo := 0, hi := 32767, flo := 5, fhi := 32767, nlo := 0, nhi := 0 } false (.int 2) .none (   -- replicationFactor
  .arrS { lo := 0, hi := 32767, flo := 5, fhi := 32767, nlo := 0, nhi := 0 } false (5) (32767) s_createtopics_request_creatabletopic_CreatableReplicaAssignment (   -- assignments
  .arrS { lo := 0, hi := 32767, flo := 5, fhi := 32767, nlo := 0, nhi := 0 } false (5) (32767) s_createtopics_request_creatabletopic_CreateableTopicConfig (   -- configs
  .nil)))))

/-- components/kafka-protocol-go/pkg/protocol/messages/createtopics/request.go `Request` -/
def s_createtopics_Request : Sch :=
  .arrS { lo := 0, hi := 32767, flo := 5, fhi := 32767, nlo := 0, nhi := 0 } false (5) (32767) s_createtopics_request_CreatableTopic (   -- topics
  .prim { lo := 0, hi := 32767, flo := 5, fhi := 32767, nlo := 0, nhi := 0 } false (.int 4) (.int (60000)) (   -- timeoutMs
  .prim { lo := 1, hi := 32767, flo := 5, fhi := 32767, nlo := 0, nhi := 0 } false (.bool) .none (   -- validateOnly
  .nil)))

/-- components/kafka-protocol-go/pkg/protocol/messages/createtopics/response/creatabletopicresult/creatabletopicconfigs.go `CreatableTopicConfigs` -/
def s_createtopics_response_creatabletopicresult_CreatableTopicConfigs : Sch :=
  .prim { lo := 5, hi := 32767, flo := 5, fhi := 32767, nlo := 5, nhi := 32767 } false (.str) .none (   -- name
  .prim { lo := 5, hi := 32767, flo := 5, fhi := 32767, nlo := 5, nhi := 32767 } false (.str) .none (   -- value
  .prim { lo := 5, hi := 32767, flo := 5, fhi := 32767, nlo := 5, nhi := 32767 } false (.bool) .none (   -- readOnly
  .prim { lo := 5, hi := 32767, flo := 5, fhi := 32767, nlo := 5, nhi := 32767 } true (.int 1) (.int (-1)) (   -- configSource
  .prim { lo := 5, hi := 32767, flo := 5, fhi := 32767, nlo := 5, nhi := 32767 } false (.bool) .none (   -- isSensitive
  .nil)))))

/-- components/kafka-protocol-go/pkg/protocol/messages/createtopics/response/creatabletopicresult.go `CreatableTopicResult` -/
def s_createtopics_response_CreatableTopicResult : Sch :=
  .prim { lo := 0, hi := 32767, flo := 5, fhi := 32767, nlo := 0, nhi := 0 } false (.str) .none (   -- name
  .prim { lo := 7, hi := 32767, flo := 5, fhi := 32767, nlo := 0, nhi := 0 } true (.uuid) .none (   -- topicId
  .prim { lo := 0, hi := 32767, flo := 5, fhi := 32767, nlo := 0, nhi := 0 } false (.int 2) .none (   -- errorCode
  .prim { lo := 1, hi := 32767, flo := 5, fhi := 32767, nlo := 0, nhi := 32767 } true (.str) .none (   -- errorMessage
  .prim { lo := 5, hi := 32767, flo := 5, fhi := 32767, nlo := 0, nhi := 0, tag := some 0, tlo := 5, thi := 32767 } true (.int 2) .none (   -- topicConfigErrorCode
  .prim { lo := 5, hi := 32767, flo := 5, fhi := 32767, nlo := 0, nhi := 0 } true (.int 4) (.int (-1)) (   -- numPartitions
  .prim { lo := 5, hi := 32767, flo := 5, fhi := 32767, nlo := 0, nhi := 0 } true (.int 2) (.int (-1)) (   -- replicationFactor
  .arrS { lo := 5, hi := 32767, flo := 5, fhi := 32767, nlo := 5, nhi := 32767 } true (5) (32767) s_createtopics_response_creatabletopicresult_CreatableTopicConfigs (   -- configs
  .nil))))))))

/-- components/kafka-protocol-go/pkg/protocol/messages/createtopics/response.go `Response` -/
def s_createtopics_Response : Sch :=
  .prim { lo := 2, hi := 32767, flo := 5, fhi := 32767, nlo := 0, nhi := 0 } true (.int 4) .none (   -- throttleTimeMs
  .arrS { lo := 0, hi := 32767, flo := 5, fhi := 32767, nlo := 0, nhi := 0 } false (5) (32767) s_createtopics_response_CreatableTopicResult (   -- topics
  .nil))

/-- components/kafka-protocol-go/pkg/protocol/messages/deleteacls/request/deleteaclsfilter.go `DeleteAclsFilter` -/
def s_deleteacls_request_DeleteAclsFilter : Sch :=
  .prim { lo := 0, hi := 32767, flo := 2, fhi := 32767, nlo := 0, nhi := 0 } false (.int 1) .none (   -- resourceTypeFilter
  .prim { lo := 0, hi := 32767, flo := 2, fhi := 32767, nlo := 0, nhi := 32767 } false (.str) .none (   -- resourceNameFilter
  .prim { lo := 1, hi := 32767, flo := 2, fhi := 32767, nlo := 0, nhi := 0 } false (.int 1) (.int (3)) (   -- patternTypeFilter
  .prim { lo := 0, hi := 32767, flo := 2, fhi := 32767, nlo := 0, nhi := 32767 } false (.str) .none (   -- principalFilter
  .prim { lo := 0, hi := 32767, flo := 2, fhi := 32767, nlo := 0, nhi := 32767 } false (.str) .none (   -- hostFilter
  .prim { lo := 0, hi := 32767, flo := 2, fhi := 32767, nlo := 0, nhi := 0 } false (.int 1) .none (   -- operation
  .prim { lo := 0, hi := 32767, flo := 2, fhi := 32767, nlo := 0, nhi := 0 } false (.int 1) .none (   -- permissionType
  .nil)))))))

/-- components/kafka-protocol-go/pkg/protocol/messages/deleteacls/request.go `Request` -/
def s_deleteacls_Request : Sch :=
  .arrS { lo := 0, hi := 32767, flo := 2, fhi := 32767, nlo := 0, nhi := 0 } false (2) (32767) s_deleteacls_request_DeleteAclsFilter (   -- filters
  .nil)

/-- components/kafka-protocol-go/pkg/protocol/messages/deleteacls/response/deleteaclsfilterresult/deleteaclsmatchingacl.go `DeleteAclsMatchingAcl` -/
def s_deleteacls_response_deleteaclsfilterresult_DeleteAclsMatchingAcl : Sch :=
  .prim { lo := 0, hi := 32767, flo := 2, fhi := 32767, nlo := 0, nhi := 0 } false (.int 2) .none (   -- errorCode
  .prim { lo := 0, hi := 32767, flo := 2, fhi := 32767, nlo := 0, nhi := 32767 } false (.str) .none (   -- errorMessage
  .prim { lo := 0, hi := 32767, flo := 2, fhi := 32767, nlo := 0, nhi := 0 } false (.int 1) .none (   -- resourceType
  .prim { lo := 0, hi := 32767, flo := 2, fhi := 32767, nlo := 0, nhi := 0 } false (.str) .none (   -- resourceName
  .prim { lo := 1, hi := 32767, flo := 2, fhi := 32767, nlo := 0, nhi := 0 } false (.int 1) (.int (3)) (   -- patternType
  .prim { lo := 0, hi := 32767, flo := 2, fhi := 32767, nlo := 0, nhi := 0 } false (.str) .none (   -- principal
  .prim { lo := 0, hi := 32767, flo := 2, fhi := 32767, nlo := 0, nhi := 0 } false (.str) .none (   -- host
  .prim { lo := 0, hi := 32767, flo := 2, fhi := 32767, nlo := 0, nhi := 0 } false (.int 1) .none (   -- operation
  .prim { lo := 0, hi := 32767, flo := 2, fhi := 32767, nlo := 0, nhi := 0 } false (.int 1) .none (   -- permissionType
  .nil)))))))))

/-- components/kafka-protocol-go/pkg/protocol/messages/deleteacls/response/deleteaclsfilterresult.go `DeleteAclsFilterResult` -/
def s_deleteacls_response_DeleteAclsFilterResult : Sch :=
  .prim { lo := 0, hi := 32767, flo := 2, fhi := 32767, nlo := 0, nhi := 0 } false (.int 2) .none (   -- errorCode
  .prim { lo := 0, hi := 32767, flo := 2, fhi := 32767, nlo := 0, nhi := 32767 } false (.str) .none (   -- errorMessage
  .arrS { lo := 0, hi := 32767, flo := 2, fhi := 32767, nlo := 0, nhi := 0 } false (2) (32767) s_deleteacls_response_deleteaclsfilterresult_DeleteAclsMatchingAcl (   -- matchingAcls
  .nil)))

/-- components/kafka-protocol-go/pkg/protocol/messages/deleteacls/response.go `Response` -/
def s_deleteacls_Response : Sch :=
  .prim { lo := 0, hi := 32767, flo := 2, fhi := 32767, nlo := 0, nhi := 0 } false (.int 4) .none (   -- throttleTimeMs
  .arrS { lo := 0, hi := 32767, flo := 2, fhi := 32767, nlo := 0, nhi := 0 } false (2) (32767) s_deleteacls_response_DeleteAclsFilterResult (   -- filterResults
  .nil))

/-- components/kafka-protocol-go/pkg/protocol/messages/deletegroups/request.go `Request` -/
def s_deletegroups_Request : Sch :=
  .arr { lo := 0, hi := 32767, flo := 2, fhi := 32767, nlo := 0, nhi := 0 } false (.str) (   -- groupsNames
  .nil)

/-- components/kafka-protocol-go/pkg/protocol/messages/deletegroups/response/deletablegroupresult.go `DeletableGroupResult` -/
def s_deletegroups_response_DeletableGroupResult : Sch :=
  .prim { lo := 0, hi := 32767, flo := 2, fhi := 32767, nlo := 0, nhi := 0 } false (.str) .none (   -- groupId
  .prim { lo := 0, hi := 32767, flo := 2, fhi := 32767, nlo := 0, nhi := 0 } false (.int 2) .none (   -- errorCode
  .nil))

/-- components/kafka-protocol-go/pkg/protocol/messages/deletegroups/response.go `Response` -/
def s_deletegroups_Response : Sch :=
  .prim { lo := 0, hi := 32767, flo := 2, fhi := 32767, nlo := 0, nhi := 0 } false (.int 4) .none (   -- throttleTimeMs
  .arrS { lo := 0, hi := 32767, flo := 2, fhi := 32767, nlo := 0, nhi := 0 } false (2) (32767) s_deletegroups_response_DeletableGroupResult (   -- results
  .nil))

/-- components/kafka-protocol-go/pkg/protocol/messages/deleterecords/request/deleterecordstopic/deleterecordspartition.go `DeleteRecordsPartition` -/
def s_deleterecords_request_deleterecordstopic_DeleteRecordsPartition : Sch :=
  .prim { lo := 0, hi := 32767, flo := 2, fhi := 32767, nlo := 0, nhi := 0 } false (.int 4) .none (   -- partitionIndex
  .prim { lo := 0, hi := 32767, flo := 2, fhi := 32767, nlo := 0, nhi := 0 } false (.int 8) .none (   -- offset
  .nil))

/-- components/kafka-protocol-go/pkg/protocol/messages/deleterecords/request/deleterecordstopic.go `DeleteRecordsTopic` -/
def s_deleterecords_request_DeleteRecordsTopic : Sch :=
  .prim { lo := 0, hi := 32767, flo := 2, fhi := 32767, nlo := 0, nhi := 0 } false (.str) .none (   -- name
  .arrS { lo := 0, hi := 32767, flo := 2, fhi := 32767, nlo := 0, nhi := 0 } false (2) (32767) s_deleterecords_request_deleterecordstopic_DeleteRecordsPartition (   -- partitions
  .nil))

/-- components/kafka-protocol-go/pkg/protocol/messages/deleterecords/request.go `Request` -/
def s_deleterecords_Request : Sch :=
  .arrS { lo := 0, hi := 32767, flo := 2, fhi := 32767, nlo := 0, nhi := 0 } false (2) (32767) s_deleterecords_request_DeleteRecordsTopic (   -- topics
  .prim { lo := 0, hi := 32767, flo := 2, fhi := 32767, nlo := 0, nhi := 0 } false (.int 4) .none (   -- timeoutMs
  .nil))

/-- components/kafka-protocol-go/pkg/protocol/messages/deleterecords/response/deleterecordstopicresult/deleterecordspartitionresult.go `DeleteRecordsPartitionResult` -/
def s_deleterecords_response_deleterecordstopicresult_DeleteRecordsPartitionResult : Sch :=
  .prim { lo := 0, hi := 32767, flo := 2, fhi := 32767, nlo := 0, nhi := 0 } false (.int 4) .none (   -- partitionIndex
  .prim { lo := 0, hi := 32767, flo := 2, fhi := 32767, nlo := 0, nhi := 0 } false (.int 8) .none (   -- lowWatermark
  .prim { lo := 0, hi := 32767, flo := 2, fhi := 32767, nlo := 0, nhi := 0 } false (.int 2) .none (   -- errorCode
  .nil)))

/-- components/kafka-protocol-go/pkg/protocol/messages/deleterecords/response/deleterecordstopicresult.go `DeleteRecordsTopicResult` -/
def s_deleterecords_response_DeleteRecordsTopicResult : Sch :=
  .prim { lo := 0, hi := 32767, flo := 2, fhi := 32767, nlo := 0, nhi := 0 } false (.str) .none (   -- name
  .arrS { lo := 0, hi := 32767, flo := 2, fhi := 32767, nlo := 0, nhi := 0 } false (2) (32767) s_deleterecords_response_deleterecordstopicresult_DeleteRecordsPartitionResult (   -- partitions
  .nil))

/-- components/kafka-protocol-go/pkg/protocol/messages/deleterecords/response.go `Response` -/
def s_deleterecords_Response : Sch :=
  .prim { lo := 0, hi := 32767, flo := 2, fhi := 32767, nlo := 0, nhi := 0 } false (.int 4) .none (   -- throttleTimeMs
  .arrS { lo := 0, hi := 32767, flo := 2, fhi := 32767, nlo := 0, nhi := 0 } false (2) (32767) s_deleterecords_response_DeleteRecordsTopicResult (   -- topics
  .nil))

/-- components/kafka-protocol-go/pkg/protocol/messages/deletetopics/request/deletetopicstate.go `DeleteTopicState` -/
def s_deletetopics_request_DeleteTopicState : Sch :=
  .prim { lo := 6, hi := 32767, flo := 4, fhi := 32767, nlo := 6, nhi := 32767 } false (.str) (.str [110, 117, 108, 108]) (   -- name
  .prim { lo := 6, hi := 32767, flo := 4, fhi := 32767, nlo := 0, nhi := 0 } false (.uuid) .none (   -- topicId
  .nil))

/-- components/kafka-protocol-go/pkg/protocol/messages/deletetopics/request.go `Request` -/
def s_deletetopics_Request : Sch :=
  .arrS { lo := 6, hi := 32767, flo := 4, fhi := 32767, nlo := 0, nhi := 0 } false (4) (32767) s_deletetopics_request_DeleteTopicState (   -- topics
  .arr { lo := 0, hi := 5, flo := 4, fhi := 32767, nlo := 0, nhi := 0 } false (.str) (   -- topicNames
  .prim { lo := 0, hi := 32767, flo := 4, fhi := 32767, nlo := 0, nhi := 0 } false (.int 4) .none (   -- timeoutMs
  .nil)))

/-- components/kafka-protocol-go/pkg/protocol/messages/deletetopics/response/deletabletopicresult.go `DeletableTopicResult` -/
def s_deletetopics_response_DeletableTopicResult : Sch :=
  .prim { lo := 0, hi := 32767, flo := 4, fhi := 32767, nlo := 6, nhi := 32767 } false (.str) .none (   -- name
  .prim { lo := 6, hi := 32767, flo := 4, fhi := 32767, nlo := 0, nhi := 0 } true (.uuid) .none (   -- topicId
  .prim { lo := 0, hi := 32767, flo := 4, fhi := 32767, nlo := 0, nhi := 0 } false (.int 2) .none (   -- errorCode
  .prim { lo := 5, hi := 32767, flo := 4, fhi := 32767, nlo := 5, nhi := 32767 } true (.str) (.str [110, 117, 108, 108]) (   -- errorMessage
  .nil))))

/-- components/kafka-protocol-go/pkg/protocol/messages/deletetopics/response.go `Response` -/
def s_deletetopics_Response : Sch :=
  .prim { lo := 1, hi := 32767, flo := 4, fhi := 32767, nlo := 0, nhi := 0 } true (.int 4) .none (   -- throttleTimeMs
  .arrS { lo := 0, hi := 32767, flo := 4, fhi := 32767, nlo := 0, nhi := 0 } false (4) (32767) s_deletetopics_response_DeletableTopicResult (   -- responses
  .nil))

/-- components/kafka-protocol-go/pkg/protocol/messages/describeacls/request.go `Request` -/
def s_describeacls_Request : Sch :=
  .prim { lo := 0, hi := 32767, flo := 2, fhi := 32767, nlo := 0, nhi := 0 } false (.int 1) .none (   -- resourceTypeFilter
  .prim { lo := 0, hi := 32767, flo := 2, fhi := 32767, nlo := 0, nhi := 32767 } false (.str) .none (   -- resourceNameFilter
  .prim { lo := 1, hi := 32767, flo := 2, fhi := 32767, nlo := 0, nhi := 0 } false (.int 1) (.int (3)) (   -- patternTypeFilter
  .prim { lo := 0, hi := 32767, flo := 2, fhi := 32767, nlo := 0, nhi := 32767 } false (.str) .none (   -- principalFilter
  .prim { lo := 0, hi := 32767, flo := 2, fhi := 32767, nlo := 0, nhi := 32767 } false (.str) .none (   -- hostFilter
  .prim { lo := 0, hi := 32767, flo := 2, fhi := 32767, nlo := 0, nhi := 0 } false (.int 1) .none (   -- operation
  .prim { lo := 0, hi := 32767, flo := 2, fhi := 32767, nlo := 0, nhi := 0 } false (.int 1) .none (   -- permissionType
  .nil)))))))

/-- components/kafka-protocol-go/pkg/protocol/messages/describeacls/response/describeaclsresource/acldescription.go `AclDescription` -/
def s_describeacls_response_describeaclsresource_AclDescription : Sch :=
  .prim { lo := 0, hi := 32767, flo := 2, fhi := 32767, nlo := 0, nhi := 0 } false (.str) .none (   -- principal
  .prim { lo := 0, hi := 32767, flo := 2, fhi := 32767, nlo := 0, nhi := 0 } false (.str) .none (   -- host
  .prim { lo := 0, hi := 32767, flo := 2, fhi := 32767, nlo := 0, nhi := 0 } false (.int 1) .none (   -- operation
  .prim { lo := 0, hi := 32767, flo := 2, fhi := 32767, nlo := 0, nhi := 0 } false (.int 1) .none (   -- permissionType
  .nil))))

/-- components/kafka-protocol-go/pkg/protocol/messages/describeacls/response/describeaclsresource.go `DescribeAclsResource` -/
def s_describeacls_response_DescribeAclsResource : Sch :=
  .prim { lo := 0, hi := 32767, flo := 2, fhi := 32767, nlo := 0, nhi := 0 } false (.int 1) .none (   -- resourceType
  .prim { lo := 0, hi := 32767, flo := 2, fhi := 32767, nlo := 0, nhi := 0 } false (.str) .none (   -- resourceName
  .prim { lo := 1, hi := 32767, flo := 2, fhi := 32767, nlo := 0, nhi := 0 } false (.int 1) (.int (3)) (   -- patternType
  .arrS { lo := 0, hi := 32767, flo := 2, fhi := 32767, nlo := 0, nhi := 0 } false (2) (32767) s_describeacls_response_describeaclsresource_AclDescription (   -- acls
  .nil))))

/-- components/kafka-protocol-go/pkg/protocol/messages/describeacls/response.go `Response` -/
def s_describeacls_Response : Sch :=
  .prim { lo := 0, hi := 32767, flo := 2, fhi := 32767, nlo := 0, nhi := 0 } false (.int 4) .none (   -- throttleTimeMs
  .prim { lo := 0, hi := 32767, flo := 2, fhi := 32767, nlo := 0, nhi := 0 } false (.int 2) .none (   -- errorCode
  .prim { lo := 0, hi := 32767, flo := 2, fhi := 32767, nlo := 0, nhi := 32767 } false (.str) .none (   -- errorMessage
  .arrS { lo := 0, hi := 32767, flo := 2, fhi := 32767, nlo := 0, nhi := 0 } false (2) (32767) s_describeacls_response_DescribeAclsResource (   -- resources
  .nil))))

/-- components/kafka-protocol-go/pkg/protocol/messages/describeclientquotas/request/componentdata.go `ComponentData` -/
def s_describeclientquotas_request_ComponentData : Sch :=
  .prim { lo := 0, hi := 32767, flo := 1, fhi := 32767, nlo := 0, nhi := 0 } false (.str) .none (   -- entityType
  .prim { lo := 0, hi := 32767, flo := 1, fhi := 32767, nlo := 0, nhi := 0 } false (.int 1) .none (   -- matchType
  .prim { lo := 0, hi := 32767, flo := 1, fhi := 32767, nlo := 0, nhi := 32767 } false (.str) .none (   -- match
  .nil)))

/-- components/kafka-protocol-go/pkg/protocol/messages/describeclientquotas/request.go `Request` -/
def s_describeclientquotas_Request : Sch :=
  .arrS { lo := 0, hi := 32767, flo := 1, fhi := 32767, nlo := 0, nhi := 0 } false (1) (32767) s_describeclientquotas_request_ComponentData (   -- components
  .prim { lo := 0, hi := 32767, flo := 1, fhi := 32767, nlo := 0, nhi := 0 } false (.bool) .none (   -- strict
  .nil))

/-- components/kafka-protocol-go/pkg/protocol/messages/describeclientquotas/response/entrydata/entitydata.go `EntityData` -/
def s_describeclientquotas_response_entrydata_EntityData : Sch :=
  .prim { lo := 0, hi := 32767, flo := 1, fhi := 32767, nlo := 0, nhi := 32767 } false (.str) .none (   -- entityType
  .prim { lo := 0, hi := 32767, flo := 1, fhi := 32767, nlo := 0, nhi := 32767 } false (.str) .none (   -- entityName
  .nil))

/-- components/kafka-protocol-go/pkg/protocol/messages/describeclientquotas/response/entrydata/valuedata.go `ValueData` -/
def s_describeclientquotas_response_entrydata_ValueData : Sch :=
  .prim { lo := 0, hi := 32767, flo := 1, fhi := 32767, nlo := 0, nhi := 32767 } false (.str) .none (   -- key
  .prim { lo := 0, hi := 32767, flo := 1, fhi := 32767, nlo := 0, nhi := 32767 } false (.f64) .none (   -- value
  .nil))

/-- components/kafka-protocol-go/pkg/protocol/messages/describeclientquotas/response/entrydata.go `EntryData` -/
def s_describeclientquotas_response_EntryData : Sch :=
  .arrS { lo := 0, hi := 32767, flo := 1, fhi := 32767, nlo := 0, nhi := 32767 } false (1) (32767) s_describeclientquotas_response_entrydata_EntityData (   -- entity
  .arrS { lo := 0, hi := 32767, flo := 1, fhi := 32767, nlo := 0, nhi := 32767 } false (1) (32767) s_describeclientquotas_response_entrydata_ValueData (   -- values
  .nil))

/-- components/kafka-protocol-go/pkg/protocol/messages/describeclientquotas/response.go `Response` -/
def s_describeclientquotas_Response : Sch :=
  .prim { lo := 0, hi := 32767, flo := 1, fhi := 32767, nlo := 0, nhi := 0 } false (.int 4) .none (   -- throttleTimeMs
  .prim { lo := 0, hi := 32767, flo := 1, fhi := 32767, nlo := 0, nhi := 0 } false (.int 2) .none (   -- errorCode
  .prim { lo := 0, hi := 32767, flo := 1, fhi := 32767, nlo := 0, nhi := 32767 } false (.str) .none (   -- errorMessage
  .arrS { lo := 0, hi := 32767, flo := 1, fhi := 32767, nlo := 0, nhi := 32767 } false (1) (32767) s_describeclientquotas_response_EntryData (   -- entries
  .nil))))

/-- components/kafka-protocol-go/pkg/protocol/messages/describecluster/request.go `Request` -/
def s_describecluster_Request : Sch :=
  .prim { lo := 0, hi := 32767, flo := 0, fhi := 32767, nlo := 0, nhi := 0 } false (.bool) .none (   -- includeClusterAuthorizedOperations
  .nil)

/-- components/kafka-protocol-go/pkg/protocol/messages/describecluster/response/describeclusterbroker.go `DescribeClusterBroker` -/
def s_describecluster_response_DescribeClusterBroker : Sch :=
  .prim { lo := 0, hi := 32767, flo := 0, fhi := 32767, nlo := 0, nhi := 0 } false (.int 4) .none (   -- brokerId
  .prim { lo := 0, hi := 32767, flo := 0, fhi := 32767, nlo := 0, nhi := 0 } false (.str) .none (   -- host
  .prim { lo := 0, hi := 32767, flo := 0, fhi := 32767, nlo := 0, nhi := 0 } false (.int 4) .none (   -- port
  .prim { lo := 0, hi := 32767, flo := 0, fhi := 32767, nlo := 0, nhi := 32767 } false (.str) (.str [110, 117, 108, 108]) (   -- rack
  .nil))))

/-- components/kafka-protocol-go/pkg/protocol/messages/describecluster/response.go `Response` -/
def s_describecluster_Response : Sch :=
  .prim { lo := 0, hi := 32767, flo := 0, fhi := 32767, nlo := 0, nhi := 0 } false (.int 4) .none (   -- throttleTimeMs
  .prim { lo := 0, hi := 32767, flo := 0, fhi := 32767, nlo := 0, nhi := 0 } false (.int 2) .none (   -- errorCode
  .prim { lo := 0, hi := 32767, flo := 0, fhi := 32767, nlo := 0, nhi := 32767 } false (.str) (.str [110, 117, 108, 108]) (   -- errorMessage
  .prim { lo := 0, hi := 32767, flo := 0, fhi := 32767, nlo := 0, nhi := 0 } false (.str) .none (   -- clusterId
  .prim { lo := 0, hi := 32767, flo := 0, fhi := 32767, nlo := 0, nhi := 0 } false (.int 4) (.int (-1)) (   -- controllerId
  .arrS { lo := 0, hi := 32767, flo := 0, fhi := 32767, nlo := 0, nhi := 0 } false (0) (32767) s_describecluster_response_DescribeClusterBroker (   -- brokers
  .prim { lo := 0, hi := 32767, flo := 0, fhi := 32767, nlo := 0, nhi := 0 } false (.int 4) (.int (-2147483648)) (   -- clusterAuthorizedOperations
  .nil)))))))

/-- components/kafka-protocol-go/pkg/protocol/messages/describeconfigs/request/describeconfigsresource.go `DescribeConfigsResource` -/
def s_describeconfigs_request_DescribeConfigsResource : Sch :=
  .prim { lo := 0, hi := 32767, flo := 4, fhi := 32767, nlo := 0, nhi := 0 } false (.int 1) .none (   -- resourceType
  .prim { lo := 0, hi := 32767, flo := 4, fhi := 32767, nlo := 0, nhi := 0 } false (.str) .none (   -- resourceName
  .arr { lo := 0, hi := 32767, flo := 4, fhi := 32767, nlo := 0, nhi := 32767 } false (.str) (   -- configurationKeys
  .nil)))

/-- components/kafka-protocol-go/pkg/protocol/messages/describeconfigs/request.go `Request` -/
def s_describeconfigs_Request : Sch :=
  .arrS { lo := 0, hi := 32767, flo := 4, fhi := 32767, nlo := 0, nhi := 0 } false (4) (32767) s_describeconfigs_request_DescribeConfigsResource (   -- resources
  .prim { lo := 1, hi := 32767, flo := 4, fhi := 32767, nlo := 0, nhi := 0 } false (.bool) .none (   -- includeSynonyms
  .prim { lo := 3, hi := 32767, flo := 4, fhi := 32767, nlo := 0, nhi := 0 } false (.bool) .none (   -- includeDocumentation
  .nil)))

/-- components/kafka-protocol-go/pkg/protocol/messages/describeconfigs/response/describeconfigsresult/describeconfigsresourceresult/describeconfigssynonym.go `DescribeConfigsSynonym` -/
def s_describeconfigs_response_describeconfigsresult_describeconfigsresourceresult_DescribeConfigsSynonym : Sch :=
  .prim { lo := 1, hi := 32767, flo := 4, fhi := 32767, nlo := 0, nhi := 0 } false (.str) .none (   -- name
  .prim { lo := 1, hi := 32767, flo := 4, fhi := 32767, nlo := 0, nhi := 32767 } false (.str) .none (   -- value
  .prim { lo := 1, hi := 32767, flo := 4, fhi := 32767, nlo := 0, nhi := 0 } false (.int 1) .none (   -- source
  .nil)))

/-- components/kafka-protocol-go/pkg/protocol/messages/describeconfigs/response/describeconfigsresult/describeconfigsresourceresult.go `DescribeConfigsResourceResult` -/
def s_describeconfigs_response_describeconfigsresult_DescribeConfigsResourceResult : Sch :=
  .prim { lo := 0, hi := 32767, flo := 4, fhi := 32767, nlo := 0, nhi := 0 } false (.str) .none (   -- name
  .prim { lo := 0, hi := 32767, flo := 4, fhi := 32767, nlo := 0, nhi := 32767 } false (.str) .none (   -- value
  .prim { lo := 0, hi := 32767, flo := 4, fhi := 32767, nlo := 0, nhi := 0 } false (.bool) .none (   -- readOnly
  .prim { lo := 0, hi := 0, flo := 4, fhi := 32767, nlo := 0, nhi := 0 } false (.bool) .none (   -- isDefault
  .prim { lo := 1, hi := 32767, flo := 4, fhi := 32767, nlo := 0, nhi := 0 } true (.int 1) (.int (-1)) (   -- configSource
  .prim { lo := 0, hi := 32767, flo := 4, fhi := 32767, nlo := 0, nhi := 0 } false (.bool) .none (   -- isSensitive
  .arrS { lo := 1, hi := 32767, flo := 4, fhi := 32767, nlo := 0, nhi := 0 } true (4) (32767) s_describeconfigs_response_describeconfigsresult_describeconfigsresourceresult_DescribeConfigsSynonym (   -- synonyms
  .prim { lo := 3, hi := 32767, flo := 4, fhi := 32767, nlo := 0, nhi := 0 } true (.int 1) .none (   -- configType
  .prim { lo := 3, hi := 32767, flo := 4, fhi := 32767, nlo := 0, nhi := 32767 } true (.str) .none (   -- documentation
  .nil)))))))))

/-- components/kafka-protocol-go/pkg/protocol/messages/describeconfigs/response/describeconfigsresult.go `DescribeConfigsResult` -/
def s_describeconfigs_response_DescribeConfigsResult : Sch :=
  .prim { lo := 0, hi := 32767, flo := 4, fhi := 32767, nlo := 0, nhi := 0 } false (.int 2) .none (   -- errorCode
  .prim { lo := 0, hi := 32767, flo := 4, fhi := 32767, nlo := 0, nhi := 32767 } false (.str) .none (   -- errorMessage
  .prim { lo := 0, hi := 32767, flo := 4, fhi := 32767, nlo := 0, nhi := 0 } false (.int 1) .none (   -- resourceType
  .prim { lo := 0, hi := 32767, flo := 4, fhi := 32767, nlo := 0, nhi := 0 } false (.str) .none (   -- resourceName
  .arrS { lo := 0, hi := 32767, flo := 4, fhi := 32767, nlo := 0, nhi := 0 } false (4) (32767) s_describeconfigs_response_describeconfigsresult_DescribeConfigsResourceResult (   -- configs
  .nil)))))

/-- components/kafka-protocol-go/pkg/protocol/messages/describeconfigs/response.go `Response` -/
def s_describeconfigs_Response : Sch :=
  .prim { lo := 0, hi := 32767, flo := 4, fhi := 32767, nlo := 0, nhi := 0 } false (.int 4) .none (   -- throttleTimeMs
  .arrS { lo := 0, hi := 32767, flo := 4, fhi := 32767, nlo := 0, nhi := 0 } false (4) (32767) s_describeconfigs_response_DescribeConfigsResult (   -- results
  .nil))

/-- components/kafka-protocol-go/pkg/protocol/messages/describedelegationtoken/request/describedelegationtokenowner.go `DescribeDelegationTokenOwner` -/
def s_describedelegationtoken_request_DescribeDelegationTokenOwner : Sch :=
  .prim { lo := 0, hi := 32767, flo := 2, fhi := 32767, nlo := 0, nhi := 32767 } false (.str) .none (   -- principalType
  .prim { lo := 0, hi := 32767, flo := 2, fhi := 32767, nlo := 0, nhi := 32767 } false (.str) .none (   -- principalName
  .nil))

/-- components/kafka-protocol-go/pkg/protocol/messages/describedelegationtoken/request.go `Request` -/
def s_describedelegationtoken_Request : Sch :=
  .arrS { lo := 0, hi := 32767, flo := 2, fhi := 32767, nlo := 0, nhi := 32767 } false (2) (32767) s_describedelegationtoken_request_DescribeDelegationTokenOwner (   -- owners
  .nil)

/-- components/kafka-protocol-go/pkg/protocol/messages/describedelegationtoken/response/describeddelegationtoken/describeddelegationtokenrenewer.go `DescribedDelegationTokenRenewer` -/
def s_describedelegationtoken_response_describeddelegationtoken_DescribedDelegationTokenRenewer : Sch :=
  .prim { lo := 0, hi := 32767, flo := 2, fhi := 32767, nlo := 0, nhi := 0 } false (.str) .none (   -- principalType
  .prim { lo := 0, hi := 32767, flo := 2, fhi := 32767, nlo := 0, nhi := 0 } false (.str) .none (   -- principalName
  .nil))

/-- components/kafka-protocol-go/pkg/protocol/messages/describedelegationtoken/response/describeddelegationtoken.go `DescribedDelegationToken` -/
def s_describedelegationtoken_response_DescribedDelegationToken : Sch :=
  .prim { lo := 0, hi := 32767, flo := 2, fhi := 32767, nlo := 0, nhi := 0 } false (.str) .none (   -- principalType
  .prim { lo := 0, hi := 32767, flo := 2, fhi := 32767, nlo := 0, nhi := 0 } false (.str) .none (   -- principalName
  .prim { lo := 3, hi := 32767, flo := 2, fhi := 32767, nlo := 0, nhi := 0 } false (.str) .none (   -- tokenRequesterPrincipalType
  .prim { lo := 3, hi := 32767, flo := 2, fhi := 32767, nlo := 0, nhi := 0 } false (.str) .none (   -- tokenRequesterPrincipalName
  .prim { lo := 0, hi := 32767, flo := 2, fhi := 32767, nlo := 0, nhi := 0 } false (.int 8) .none (   -- issueTimestamp
  .prim { lo := 0, hi := 32767, flo := 2, fhi := 32767, nlo := 0, nhi := 0 } false (.int 8) .none (   -- expiryTimestamp
  .prim { lo := 0, hi := 32767, flo := 2, fhi := 32767, nlo := 0, nhi := 0 } false (.int 8) .none (   -- maxTimestamp
  .prim { lo := 0, hi := 32767, flo := 2, fhi := 32767, nlo := 0, nhi := 0 } false (.str) .none (   -- tokenId
  .prim { lo := 0, hi := 32767, flo := 2, fhi := 32767, nlo := 0, nhi := 0 } false (.bytes) .none (   -- hmac
  .arrS { lo := 0, hi := 32767, flo := 2, fhi := 32767, nlo := 0, nhi := 0 } false (2) (32767) s_describedelegationtoken_response_describeddelegationtoken_DescribedDelegationTokenRenewer (   -- renewers
  .nil))))))))))

/-- components/kafka-protocol-go/pkg/protocol/messages/describedelegationtoken/response.go `Response` -/
def s_describedelegationtoken_Response : Sch :=
  .prim { lo := 0, hi := 32767, flo := 2, fhi := 32767, nlo := 0, nhi := 0 } false (.int 2) .none (   -- errorCode
  .arrS { lo := 0, hi := 32767, flo := 2, fhi := 32767, nlo := 0, nhi := 0 } false (2) (32767) s_describedelegationtoken_response_DescribedDelegationToken (   -- tokens
  .prim { lo := 0, hi := 32767, flo := 2, fhi := 32767, nlo := 0, nhi := 0 } false (.int 4) .none (   -- throttleTimeMs
  .nil)))

/-- components/kafka-protocol-go/pkg/protocol/messages/describegroups/request.go `Request` -/
def s_describegroups_Request : Sch :=
  .arr { lo := 0, hi := 32767, flo := 5, fhi := 32767, nlo := 0, nhi := 0 } false (.str) (   -- groups
  .prim { lo := 3, hi := 32767, flo := 5, fhi := 32767, nlo := 0, nhi := 0 } false (.bool) .none (   -- includeAuthorizedOperations
  .nil))

/-- components/kafka-protocol-go/pkg/protocol/messages/describegroups/response/describedgroup/describedgroupmember.go `DescribedGroupMember` -/
def s_describegroups_response_describedgroup_DescribedGroupMember : Sch :=
  .prim { lo := 0, hi := 32767, flo := 5, fhi := 32767, nlo := 0, nhi := 0 } false (.str) .none (   -- memberId
  .prim { lo := 4, hi := 32767, flo := 5, fhi := 32767, nlo := 4, nhi := 32767 } true (.str) (.str [110, 117, 108, 108]) (   -- groupInstanceId
  .prim { lo := 0, hi := 32767, flo := 5, fhi := 32767, nlo := 0, nhi := 0 } false (.str) .none (   -- clientId
  .prim { lo := 0, hi := 32767, flo := 5, fhi := 32767, nlo := 0, nhi := 0 } false (.str) .none (   -- clientHost
  .prim { lo := 0, hi := 32767, flo := 5, fhi := 32767, nlo := 0, nhi := 0 } false (.bytes) .none (   -- memberMetadata
  .prim { lo := 0, hi := 32767, flo := 5, fhi := 32767, nlo := 0, nhi := 0 } false (.bytes) .none (   -- memberAssignment
  .nil))))))

/-- components/kafka-protocol-go/pkg/protocol/messages/describegroups/response/describedgroup.go `DescribedGroup` -/
def s_describegroups_response_DescribedGroup : Sch :=
  .prim { lo := 0, hi := 32767, flo := 5, fhi := 32767, nlo := 0, nhi := 0 } false (.int 2) .none (   -- errorCode
  .prim { lo := 0, hi := 32767, flo := 5, fhi := 32767, nlo := 0, nhi := 0 } false (.str) .none (   -- groupId
  .prim { lo := 0, hi := 32767, flo := 5, fhi := 32767, nlo := 0, nhi := 0 } false (.str) .none (   -- groupState
  .prim { lo := 0, hi := 32767, flo := 5, fhi := 32767, nlo := 0, nhi := 0 } false (.str) .none (   -- protocolType
  .prim { lo := 0, hi := 32767, flo := 5, fhi := 32767, nlo := 0, nhi := 0 } false (.str) .none (   -- protocolData
  .arrS { lo := 0, hi := 32767, flo := 5, fhi := 32767, nlo := 0, nhi := 0 } false (5) (32767) s_describegroups_response_describedgroup_DescribedGroupMember (   -- members
  .prim { lo := 3, hi := 32767, flo := 5, fhi := 32767, nlo := 0, nhi := 0 } false (.int 4) (.int (-2147483648)) (   -- authorizedOperations
  .nil)))))))

/-- components/kafka-protocol-go/pkg/protocol/messages/describegroups/response.go `Response` -/
def s_describegroups_Response : Sch :=
  .prim { lo := 1, hi := 32767, flo := 5, fhi := 32767, nlo := 0, nhi := 0 } true (.int 4) .none (   -- throttleTimeMs
  .arrS { lo := 0, hi := 32767, flo := 5, fhi := 32767, nlo := 0, nhi := 0 } false (5) (32767) s_describegroups_response_DescribedGroup (   -- groups
  .nil))

/-- components/kafka-protocol-go/pkg/protocol/messages/describelogdirs/request/describablelogdirtopic.go `DescribableLogDirTopic` -/
def s_describelogdirs_request_DescribableLogDirTopic : Sch :=
  .prim { lo := 0, hi := 32767, flo := 2, fhi := 32767, nlo := 0, nhi := 32767 } false (.str) .none (   -- topic
  .arr { lo := 0, hi := 32767, flo := 2, fhi := 32767, nlo := 0, nhi := 32767 } false (.int 4) (   -- partitions
  .nil))

/-- components/kafka-protocol-go/pkg/protocol/messages/describelogdirs/request.go `Request` -/
def s_describelogdirs_Request : Sch :=
  .arrS { lo := 0, hi := 32767, flo := 2, fhi := 32767, nlo := 0, nhi := 32767 } false (2) (32767) s_describelogdirs_request_DescribableLogDirTopic (   -- topics
  .nil)

/-- components/kafka-protocol-go/pkg/protocol/messages/describelogdirs/response/describelogdirsresult/describelogdirstopic/describelogdirspartition.go `DescribeLogDirsPartition` -/
def s_describelogdirs_response_describelogdirsresult_describelogdirstopic_DescribeLogDirsPartition : Sch :=
  .prim { lo := 0, hi := 32767, flo := 2, fhi := 32767, nlo := 0, nhi := 0 } false (.int 4) .none (   -- partitionIndex
  .prim { lo := 0, hi := 32767, flo := 2, fhi := 32767, nlo := 0, nhi := 0 } false (.int 8) .none (   -- partitionSize
  .prim { lo := 0, hi := 32767, flo := 2, fhi := 32767, nlo := 0, nhi := 0 } false (.int 8) .none (   -- offsetLag
  .prim { lo := 0, hi := 32767, flo := 2, fhi := 32767, nlo := 0, nhi := 0 } false (.bool) .none (   -- isFutureKey
  .nil))))

/-- components/kafka-protocol-go/pkg/protocol/messages/describelogdirs/response/describelogdirsresult/describelogdirstopic.go `DescribeLogDirsTopic` -/
def s_describelogdirs_response_describelogdirsresult_DescribeLogDirsTopic : Sch :=
  .prim { lo := 0, hi := 32767, flo := 2, fhi := 32767, nlo := 0, nhi := 0 } false (.str) .none (   -- name
  .arrS { lo := 0, hi := 32767, flo := 2, fhi := 32767, nlo := 0, nhi := 0 } false (2) (32767) s_describelogdirs_response_describelogdirsresult_describelogdirstopic_DescribeLogDirsPartition (   -- partitions
  .nil))

/-- components/kafka-protocol-go/pkg/protocol/messages/describelogdirs/response/describelogdirsresult.go `DescribeLogDirsResult` -/
def s_describelogdirs_response_DescribeLogDirsResult : Sch :=
  .prim { lo := 0, hi := 32767, flo := 2, fhi := 32767, nlo := 0, nhi := 0 } false (.int 2) .none (   -- errorCode
  .prim { lo := 0, hi := 32767, flo := 2, fhi := 32767, nlo := 0, nhi := 0 } false (.str) .none (   -- logDir
  .arrS { lo := 0, hi := 32767, flo := 2, fhi := 32767, nlo := 0, nhi := 0 } false (2) (32767) s_describelogdirs_response_describelogdirsresult_DescribeLogDirsTopic (   -- topics
  .prim { lo := 4, hi := 32767, flo := 2, fhi := 32767, nlo := 0, nhi := 0 } true (.int 8) (.int (-1)) (   -- totalBytes
  .prim { lo := 4, hi := 32767, flo := 2, fhi := 32767, nlo := 0, nhi := 0 } true (.int 8) (.int (-1)) (   -- usableBytes
  .nil)))))

/-- components/kafka-protocol-go/pkg/protocol/messages/describelogdirs/response.go `Response` -/
def s_describelogdirs_Response : Sch :=
  .prim { lo := 0, hi := 32767, flo := 2, fhi := 32767, nlo := 0, nhi := 0 } false (.int 4) .none (   -- throttleTimeMs
  .prim { lo := 3, hi := 32767, flo := 2, fhi := 32767, nlo := 0, nhi := 0 } true (.int 2) .none (   -- errorCode
  .arrS { lo := 0, hi := 32767, flo := 2, fhi := 32767, nlo := 0, nhi := 0 } false (2) (32767) s_describelogdirs_response_DescribeLogDirsResult (   -- results
  .nil)))

/-- components/kafka-protocol-go/pkg/protocol/messages/describeproducers/request/topicrequest.go `TopicRequest` -/
def s_describeproducers_request_TopicRequest : Sch :=
  .prim { lo := 0, hi := 32767, flo := 0, fhi := 32767, nlo := 0, nhi := 0 } false (.str) .none (   -- name
  .arr { lo := 0, hi := 32767, flo := 0, fhi := 32767, nlo := 0, nhi := 0 } false (.int 4) (   -- partitionIndexes
  .nil))

/-- components/kafka-protocol-go/pkg/protocol/messages/describeproducers/request.go `Request` -/
def s_describeproducers_Request : Sch :=
  .arrS { lo := 0, hi := 32767, flo := 0, fhi := 32767, nlo := 0, nhi := 0 } false (0) (32767) s_describeproducers_request_TopicRequest (   -- topics
  .nil)

/-- components/kafka-protocol-go/pkg/protocol/messages/describeproducers/response/topicresponse/partitionresponse/producerstate.go `ProducerState` -/
def s_describeproducers_response_topicresponse_partitionresponse_ProducerState : Sch :=
  .prim { lo := 0, hi := 32767, flo := 0, fhi := 32767, nlo := 0, nhi := 0 } false (.int 8) .none (   -- producerId
  .prim { lo := 0, hi := 32767, flo := 0, fhi := 32767, nlo := 0, nhi := 0 } false (.int 4) .none (   -- producerEpoch
  .prim { lo := 0, hi := 32767, flo := 0, fhi := 32767, nlo := 0, nhi := 0 } false (.int 4) (.int (-1)) (   -- lastSequence
  .prim { lo := 0, hi := 32767, flo := 0, fhi := 32767, nlo := 0, nhi := 0 } false (.int 8) (.int (-1)) (   -- lastTimestamp
  .prim { lo := 0, hi := 32767, flo := 0, fhi := 32767, nlo := 0, nhi := 0 } false (.int 4) .none (   -- coordinatorEpoch
  .prim { lo := 0, hi := 32767, flo := 0, fhi := 32767, nlo := 0, nhi := 0 } false (.int 8) (.int (-1)) (   -- currentTxnStartOffset
  .nil))))))

/-- components/kafka-protocol-go/pkg/protocol/messages/describeproducers/response/topicresponse/partitionresponse.go `PartitionResponse` -/
def s_describeproducers_response_topicresponse_PartitionResponse : Sch :=
  .prim { lo := 0, hi := 32767, flo := 0, fhi := 32767, nlo := 0, nhi := 0 } false (.int 4) .none (   -- partitionIndex
  .prim { lo := 0, hi := 32767, flo := 0, fhi := 32767, nlo := 0, nhi := 0 } false (.int 2) .none (   -- errorCode
  .prim { lo := 0, hi := 32767, flo := 0, fhi := 32767, nlo := 0, nhi := 32767 } false (.str) (.str [110, 117, 108, 108]) (   -- errorMessage
  .arrS { lo := 0, hi := 32767, flo := 0, fhi := 32767, nlo := 0, nhi := 0 } false (0) (32767) s_describeproducers_response_topicresponse_partitionresponse_ProducerState (   -- activeProducers
  .nil))))

/-- components/kafka-protocol-go/pkg/protocol/messages/describeproducers/response/topicresponse.go `TopicResponse` -/
def s_describeproducers_response_TopicResponse : Sch :=
  .prim { lo := 0, hi := 32767, flo := 0, fhi := 32767, nlo := 0, nhi := 0 } false (.str) .none (   -- name
  .arrS { lo := 0, hi := 32767, flo := 0, fhi := 32767, nlo := 0, nhi := 0 } false (0) (32767) s_describeproducers_response_topicresponse_PartitionResponse (   -- partitions
  .nil))

/-- components/kafka-protocol-go/pkg/protocol/messages/describeproducers/response.go `Response` -/
def s_describeproducers_Response : Sch :=
  .prim { lo := 0, hi := 32767, flo := 0, fhi := 32767, nlo := 0, nhi := 0 } false (.int 4) .none (   -- throttleTimeMs
  .arrS { lo := 0, hi := 32767, flo := 0, fhi := 32767, nlo := 0, nhi := 0 } false (0) (32767) s_describeproducers_response_TopicResponse (   -- topics
  .nil))

/-- components/kafka-protocol-go/pkg/protocol/messages/describequorum/request/topicdata/partitiondata.go `PartitionData` -/
def s_describequorum_request_topicdata_PartitionData : Sch :=
  .prim { lo := 0, hi := 32767, flo := 0, fhi := 32767, nlo := 0, nhi := 0 } false (.int 4) .none (   -- partitionIndex
  .nil)

/-- components/kafka-protocol-go/pkg/protocol/messages/describequorum/request/topicdata.go `TopicData` -/
def s_describequorum_request_TopicData : Sch :=
  .prim { lo := 0, hi := 32767, flo := 0, fhi := 32767, nlo := 0, nhi := 0 } false (.str) .none (   -- topicName
  .arrS { lo := 0, hi := 32767, flo := 0, fhi := 32767, nlo := 0, nhi := 0 } false (0) (32767) s_describequorum_request_topicdata_PartitionData (   -- partitions
  .nil))

/-- components/kafka-protocol-go/pkg/protocol/messages/describequorum/request.go `Request` -/
def s_describequorum_Request : Sch :=
  .arrS { lo := 0, hi := 32767, flo := 0, fhi := 32767, nlo := 0, nhi := 0 } false (0) (32767) s_describequorum_request_TopicData (   -- topics
  .nil)

/-- components/kafka-protocol-go/pkg/protocol/messages/describequorum/common/replicastate.go `ReplicaState` -/
def s_describequorum_common_ReplicaState : Sch :=
  .prim { lo := 0, hi := 32767, flo := 0, fhi := 32767, nlo := 0, nhi := 0 } false (.int 4) .none (   -- replicaId
  .prim { lo := 0, hi := 32767, flo := 0, fhi := 32767, nlo := 0, nhi := 0 } false (.int 8) .none (   -- logEndOffset
  .prim { lo := 1, hi := 32767, flo := 0, fhi := 32767, nlo := 0, nhi := 0 } true (.int 8) (.int (-1)) (   -- lastFetchTimestamp
  .prim { lo := 1, hi := 32767, flo := 0, fhi := 32767, nlo := 0, nhi := 0 } true (.int 8) (.int (-1)) (   -- lastCaughtUpTimestamp
  .nil))))

/-- components/kafka-protocol-go/pkg/protocol/messages/describequorum/response/topicdata/partitiondata.go `PartitionData` -/
def s_describequorum_response_topicdata_PartitionData : Sch :=
  .prim { lo := 0, hi := 32767, flo := 0, fhi := 32767, nlo := 0, nhi := 0 } false (.int 4) .none (   -- partitionIndex
  .prim { lo := 0, hi := 32767, flo := 0, fhi := 32767, nlo := 0, nhi := 0 } false (.int 2) .none (   -- errorCode
  .prim { lo := 0, hi := 32767, flo := 0, fhi := 32767, nlo := 0, nhi := 0 } false (.int 4) .none (   -- leaderId
  .prim { lo := 0, hi := 32767, flo := 0, fhi := 32767, nlo := 0, nhi := 0 } false (.int 4) .none (   -- leaderEpoch
  .prim { lo := 0, hi := 32767, flo := 0, fhi := 32767, nlo := 0, nhi := 0 } false (.int 8) .none (   -- highWatermark
  .arrS { lo := 0, hi := 32767, flo := 0, fhi := 32767, nlo := 0, nhi := 0 } false (0) (32767) s_describequorum_common_ReplicaState (   -- currentVoters
  .arrS { lo := 0, hi := 32767, flo := 0, fhi := 32767, nlo := 0, nhi := 0 } false (0) (32767) s_describequorum_common_ReplicaState (   -- observers
  .nil)))))))

/-- components/kafka-protocol-go/pkg/protocol/messages/describequorum/response/topicdata.go `TopicData` -/
def s_describequorum_response_TopicData : Sch :=
  .prim { lo := 0, hi := 32767, flo := 0, fhi := 32767, nlo := 0, nhi := 0 } false (.str) .none (   -- topicName
  .arrS { lo := 0, hi := 32767, flo := 0, fhi := 32767, nlo := 0, nhi := 0 } false (0) (32767) s_describequorum_response_topicdata_PartitionData (   -- partitions
  .nil))

/-- components/kafka-protocol-go/pkg/protocol/messages/describequorum/response.go `Response` -/
def s_describequorum_Response : Sch :=
  .prim { lo := 0, hi := 32767, flo := 0, fhi := 32767, nlo := 0, nhi := 0 } false (.int 2) .none (   -- errorCode
  .arrS { lo := 0, hi := 32767, flo := 0, fhi := 32767, nlo := 0, nhi := 0 } false (0) (32767) s_describequorum_response_TopicData (   -- topics
  .nil))

/-- components/kafka-protocol-go/pkg/protocol/messages/describetransactions/request.go `Request` -/
def s_describetransactions_Request : Sch :=
  .arr { lo := 0, hi := 32767, flo := 0, fhi := 32767, nlo := 0, nhi := 0 } false (.str) (   -- transactionalIds
  .nil)

/-- components/kafka-protocol-go/pkg/protocol/messages/describetransactions/response/transactionstate/topicdata.go `TopicData` -/
def s_describetransactions_response_transactionstate_TopicData : Sch :=
  .prim { lo := 0, hi := 32767, flo := 0, fhi := 32767, nlo := 0, nhi := 0 } false (.str) .none (   -- topic
  .arr { lo := 0, hi := 32767, flo := 0, fhi := 32767, nlo := 0, nhi := 0 } false (.int 4) (   -- partitions
  .nil))

/-- components/kafka-protocol-go/pkg/protocol/messages/describetransactions/response/transactionstate.go `TransactionState` -/
def s_describetransactions_response_TransactionState : Sch :=
  .prim { lo := 0, hi := 32767, flo := 0, fhi := 32767, nlo := 0, nhi := 0 } false (.int 2) .none (   -- errorCode
  .prim { lo := 0, hi := 32767, flo := 0, fhi := 32767, nlo := 0, nhi := 0 } false (.str) .none (   -- transactionalId
  .prim { lo := 0, hi := 32767, flo := 0, fhi := 32767, nlo := 0, nhi := 0 } false (.str) .none (   -- transactionState
  .prim { lo := 0, hi := 32767, flo := 0, fhi := 32767, nlo := 0, nhi := 0 } false (.int 4) .none (   -- transactionTimeoutMs
  .prim { lo := 0, hi := 32767, flo := 0, fhi := 32767, nlo := 0, nhi := 0 } false (.int 8) .none (   -- transactionStartTimeMs
  .prim { lo := 0, hi := 32767, flo := 0, fhi := 32767, nlo := 0, nhi := 0 } false (.int 8) .none (   -- producerId
  .prim { lo := 0, hi := 32767, flo := 0, fhi := 32767, nlo := 0, nhi := 0 } false (.int 2) .none (   -- producerEpoch
  .arrS { lo := 0, hi := 32767, flo := 0, fhi := 32767, nlo := 0, nhi := 0 } false (0) (32767) s_describetransactions_response_transactionstate_TopicData (   -- topics
  .nil))))))))

/-- components/kafka-protocol-go/pkg/protocol/messages/describetransactions/response.go `Response` -/
def s_describetransactions_Response : Sch :=
  .prim { lo := 0, hi := 32767, flo := 0, fhi := 32767, nlo := 0, nhi := 0 } false (.int 4) .none (   -- throttleTimeMs
  .arrS { lo := 0, hi := 32767, flo := 0, fhi := 32767, nlo := 0, nhi := 0 } false (0) (32767) s_describetransactions_response_TransactionState (   -- transactionStates
  .nil))

/-- components/kafka-protocol-go/pkg/protocol/messages/describeuserscramcredentials/request/username.go `UserName` -/
def s_describeuserscramcredentials_request_UserName : Sch :=
  .prim { lo := 0, hi := 32767, flo := 0, fhi := 32767, nlo := 0, nhi := 32767 } false (.str) .none (   -- name
  .nil)

/-- components/kafka-protocol-go/pkg/protocol/messages/describeuserscramcredentials/request.go `Request` -/
def s_describeuserscramcredentials_Request : Sch :=
  .arrS { lo := 0, hi := 32767, flo := 0, fhi := 32767, nlo := 0, nhi := 32767 } false (0) (32767) s_describeuserscramcredentials_request_UserName (   -- users
  .nil)

/-- components/kafka-protocol-go/pkg/protocol/messages/describeuserscramcredentials/response/describeuserscramcredentialsresult/credentialinfo.go `CredentialInfo` -/
def s_describeuserscramcredentials_response_describeuserscramcredentialsresult_CredentialInfo : Sch :=
  .prim { lo := 0, hi := 32767, flo := 0, fhi := 32767, nlo := 0, nhi := 0 } false (.int 1) .none (   -- mechanism
  .prim { lo := 0, hi := 32767, flo := 0, fhi := 32767, nlo := 0, nhi := 0 } false (.int 4) .none (   -- iterations
  .nil))

/-- components/kafka-protocol-go/pkg/protocol/messages/describeuserscramcredentials/response/describeuserscramcredentialsresult.go `DescribeUserScramCredentialsResult` -/
def s_describeuserscramcredentials_response_DescribeUserScramCredentialsResult : Sch :=
  .prim { lo := 0, hi := 32767, flo := 0, fhi := 32767, nlo := 0, nhi := 0 } false (.str) .none (   -- user
  .prim { lo := 0, hi := 32767, flo := 0, fhi := 32767, nlo := 0, nhi := 0 } false (.int 2) .none (   -- errorCode
  .prim { lo := 0, hi := 32767, flo := 0, fhi := 32767, nlo := 0, nhi := 32767 } false (.str) .none (   -- errorMessage
  .arrS { lo := 0, hi := 32767, flo := 0, fhi := 32767, nlo := 0, nhi := 0 } false (0) (32767) s_describeuserscramcredentials_response_describeuserscramcredentialsresult_CredentialInfo (   -- credentialInfos
  .nil))))

/-- components/kafka-protocol-go/pkg/protocol/messages/describeuserscramcredentials/response.go `Response` -/
def s_describeuserscramcredentials_Response : Sch :=
  .prim { lo := 0, hi := 32767, flo := 0, fhi := 32767, nlo := 0, nhi := 0 } false (.int 4) .none (   -- throttleTimeMs
  .prim { lo := 0, hi := 32767, flo := 0, fhi := 32767, nlo := 0, nhi := 0 } false (.int 2) .none (   -- errorCode
  .prim { lo := 0, hi := 32767, flo := 0, fhi := 32767, nlo := 0, nhi := 32767 } false (.str) .none (   -- errorMessage
  .arrS { lo := 0, hi := 32767, flo := 0, fhi := 32767, nlo := 0, nhi := 0 } false (0) (32767) s_describeuserscramcredentials_response_DescribeUserScramCredentialsResult (   -- results
  .nil))))

/-- components/kafka-protocol-go/pkg/protocol/messages/electleaders/request/topicpartitions.go `TopicPartitions` -/
def s_electleaders_request_TopicPartitions : Sch :=
  .prim { lo := 0, hi := 32767, flo := 2, fhi := 32767, nlo := 0, nhi := 32767 } false (.str) .none (   -- topic
  .arr { lo := 0, hi := 32767, flo := 2, fhi := 32767, nlo := 0, nhi := 32767 } false (.int 4) (   -- partitions
  .nil))

/-- components/kafka-protocol-go/pkg/protocol/messages/electleaders/request.go `Request` -/
def s_electleaders_Request : Sch :=
  .prim { lo := 1, hi := 32767, flo := 2, fhi := 32767, nlo := 0, nhi := 0 } false (.int 1) .none (   -- electionType
  .arrS { lo := 0, hi := 32767, flo := 2, fhi := 32767, nlo := 0, nhi := 32767 } false (2) (32767) s_electleaders_request_TopicPartitions (   -- topicPartitions
  .prim { lo := 0, hi := 32767, flo := 2, fhi := 32767, nlo := 0, nhi := 0 } false (.int 4) (.int (60000)) (   -- timeoutMs
  .nil)))

/-- components/kafka-protocol-go/pkg/protocol/messages/electleaders/response/replicaelectionresult/partitionresult.go `PartitionResult` -/
def s_electleaders_response_replicaelectionresult_PartitionResult : Sch :=
  .prim { lo := 0, hi := 32767, flo := 2, fhi := 32767, nlo := 0, nhi := 0 } false (.int 4) .none (   -- partitionId
  .prim { lo := 0, hi := 32767, flo := 2, fhi := 32767, nlo := 0, nhi := 0 } false (.int 2) .none (   -- errorCode
  .prim { lo := 0, hi := 32767, flo := 2, fhi := 32767, nlo := 0, nhi := 32767 } false (.str) .none (   -- errorMessage
  .nil)))

/-- components/kafka-protocol-go/pkg/protocol/messages/electleaders/response/replicaelectionresult.go `ReplicaElectionResult` -/
def s_electleaders_response_ReplicaElectionResult : Sch :=
  .prim { lo := 0, hi := 32767, flo := 2, fhi := 32767, nlo := 0, nhi := 0 } false (.str) .none (   -- topic
  .arrS { lo := 0, hi := 32767, flo := 2, fhi := 32767, nlo := 0, nhi := 0 } false (2) (32767) s_electleaders_response_replicaelectionresult_PartitionResult (   -- partitionResult
  .nil))

/-- components/kafka-protocol-go/pkg/protocol/messages/electleaders/response.go `Response` -/
def s_electleaders_Response : Sch :=
  .prim { lo := 0, hi := 32767, flo := 2, fhi := 32767, nlo := 0, nhi := 0 } false (.int 4) .none (   -- throttleTimeMs
  .prim { lo := 1, hi := 32767, flo := 2, fhi := 32767, nlo := 0, nhi := 0 } false (.int 2) .none (   -- errorCode
  .arrS { lo := 0, hi := 32767, flo := 2, fhi := 32767, nlo := 0, nhi := 0 } false (2) (32767) s_electleaders_response_ReplicaElectionResult (   -- replicaElectionResults
  .nil)))

/-- components/kafka-protocol-go/pkg/protocol/messages/endquorumepoch/request/topicdata/partitiondata.go `PartitionData` -/
def s_endquorumepoch_request_topicdata_PartitionData : Sch :=
  .prim { lo := 0, hi := 32767, flo := 32767, fhi := 32767, nlo := 0, nhi := 0 } false (.int 4) .none (   -- partitionIndex
  .prim { lo := 0, hi := 32767, flo := 32767, fhi := 32767, nlo := 0, nhi := 0 } false (.int 4) .none (   -- leaderId
  .prim { lo := 0, hi := 32767, flo := 32767, fhi := 32767, nlo := 0, nhi := 0 } false (.int 4) .none (   -- leaderEpoch
  .arr { lo := 0, hi := 32767, flo := 32767, fhi := 32767, nlo := 0, nhi := 0 } false (.int 4) (   -- preferredSuccessors
  .nil))))

/-- components/kafka-protocol-go/pkg/protocol/messages/endquorumepoch/request/topicdata.go `TopicData` -/
def s_endquorumepoch_request_TopicData : Sch :=
  .prim { lo := 0, hi := 32767, flo := 32767, fhi := 32767, nlo := 0, nhi := 0 } false (.str) .none (   -- topicName
  .arrS { lo := 0, hi := 32767, flo := 32767, fhi := 32767, nlo := 0, nhi := 0 } false (32767) (32767) s_endquorumepoch_request_topicdata_PartitionData (   -- partitions
  .nil))

/-- components/kafka-protocol-go/pkg/protocol/messages/endquorumepoch/request.go `Request` -/
def s_endquorumepoch_Request : Sch :=
  .prim { lo := 0, hi := 32767, flo := 32767, fhi := 32767, nlo := 0, nhi := 32767 } false (.str) (.str [110, 117, 108, 108]) (   -- clusterId
  .arrS { lo := 0, hi := 32767, flo := 32767, fhi := 32767, nlo := 0, nhi := 0 } false (32767) (32767) s_endquorumepoch_request_TopicData (   -- topics
  .nil))

/-- components/kafka-protocol-go/pkg/protocol/messages/endquorumepoch/response/topicdata/partitiondata.go `PartitionData` -/
def s_endquorumepoch_response_topicdata_PartitionData : Sch :=
  .prim { lo := 0, hi := 32767, flo := 32767, fhi := 32767, nlo := 0, nhi := 0 } false (.int 4) .none (   -- partitionIndex
  .prim { lo := 0, hi := 32767, flo := 32767, fhi := 32767, nlo := 0, nhi := 0 } false (.int 2) .none (   -- errorCode
  .prim { lo := 0, hi := 32767, flo := 32767, fhi := 32767, nlo := 0, nhi := 0 } false (.int 4) .none (   -- leaderId
  .prim { lo := 0, hi := 32767, flo := 32767, fhi := 32767, nlo := 0, nhi := 0 } false (.int 4) .none (   -- leaderEpoch
  .nil))))

/-- components/kafka-protocol-go/pkg/protocol/messages/endquorumepoch/response/topicdata.go `TopicData` -/
def s_endquorumepoch_response_TopicData : Sch :=
  .prim { lo := 0, hi := 32767, flo := 32767, fhi := 32767, nlo := 0, nhi := 0 } false (.str) .none (   -- topicName
  .arrS { lo := 0, hi := 32767, flo := 32767, fhi := 32767, nlo := 0, nhi := 0 } false (32767) (32767) s_endquorumepoch_response_topicdata_PartitionData (   -- partitions
  .nil))

/-- components/kafka-protocol-go/pkg/protocol/messages/endquorumepoch/response.go `Response` -/
def s_endquorumepoch_Response : Sch :=
  .prim { lo := 0, hi := 32767, flo := 32767, fhi := 32767, nlo := 0, nhi := 0 } false (.int 2) .none (   -- errorCode
  .arrS { lo := 0, hi := 32767, flo := 32767, fhi := 32767, nlo := 0, nhi := 0 } false (32767) (32767) s_endquorumepoch_response_TopicData (   -- topics
  .nil))

/-- components/kafka-protocol-go/pkg/protocol/messages/endtxn/request.go `Request` -/
def s_endtxn_Request : Sch :=
  .prim { lo := 0, hi := 32767, flo := 3, fhi := 32767, nlo := 0, nhi := 0 } false (.str) .none (   -- transactionalId
  .prim { lo := 0, hi := 32767, flo := 3, fhi := 32767, nlo := 0, nhi := 0 } false (.int 8) .none (   -- producerId
  .prim { lo := 0, hi := 32767, flo := 3, fhi := 32767, nlo := 0, nhi := 0 } false (.int 2) .none (   -- producerEpoch
  .prim { lo := 0, hi := 32767, flo := 3, fhi := 32767, nlo := 0, nhi := 0 } false (.bool) .none (   -- committed
  .nil))))

/-- components/kafka-protocol-go/pkg/protocol/messages/endtxn/response.go `Response` -/
def s_endtxn_Response : Sch :=
  .prim { lo := 0, hi := 32767, flo := 3, fhi := 32767, nlo := 0, nhi := 0 } false (.int 4) .none (   -- throttleTimeMs
  .prim { lo := 0, hi := 32767, flo := 3, fhi := 32767, nlo := 0, nhi := 0 } false (.int 2) .none (   -- errorCode
  .nil))

/-- components/kafka-protocol-go/pkg/protocol/messages/envelope/request.go `Request` -/
def s_envelope_Request : Sch :=
  .prim { lo := 0, hi := 32767, flo := 0, fhi := 32767, nlo := 0, nhi := 0 } false (.bytes) .none (   -- requestData
  .prim { lo := 0, hi := 32767, flo := 0, fhi := 32767, nlo := 0, nhi := 32767 } false (.bytes) .none (   -- requestPrincipal
  .prim { lo := 0, hi := 32767, flo := 0, fhi := 32767, nlo := 0, nhi := 0 } false (.bytes) .none (   -- clientHostAddress
  .nil)))

/-- components/kafka-protocol-go/pkg/protocol/messages/envelope/response.go `Response` -/
def s_envelope_Response : Sch :=
  .prim { lo := 0, hi := 32767, flo := 0, fhi := 32767, nlo := 0, nhi := 32767 } false (.bytes) .none (   -- responseData
  .prim { lo := 0, hi := 32767, flo := 0, fhi := 32767, nlo := 0, nhi := 0 } false (.int 2) .none (   -- errorCode
  .nil))

/-- components/kafka-protocol-go/pkg/protocol/messages/expiredelegationtoken/request.go `Request` -/
def s_expiredelegationtoken_Request : Sch :=
  .prim { lo := 0, hi := 32767, flo := 2, fhi := 32767, nlo := 0, nhi := 0 } false (.bytes) .none (   -- hmac
  .prim { lo := 0, hi := 32767, flo := 2, fhi := 32767, nlo := 0, nhi := 0 } false (.int 8) .none (   -- expiryTimePeriodMs
  .nil))

/-- components/kafka-protocol-go/pkg/protocol/messages/expiredelegationtoken/response.go `Response` -/
def s_expiredelegationtoken_Response : Sch :=
  .prim { lo := 0, hi := 32767, flo := 2, fhi := 32767, nlo := 0, nhi := 0 } false (.int 2) .none (   -- errorCode
  .prim { lo := 0, hi := 32767, flo := 2, fhi := 32767, nlo := 0, nhi := 0 } false (.int 8) .none (   -- expiryTimestampMs
  .prim { lo := 0, hi := 32767, flo := 2, fhi := 32767, nlo := 0, nhi := 0 } false (.int 4) .none (   -- throttleTimeMs
  .nil)))

/-- components/kafka-protocol-go/pkg/protocol/messages/fetch/request/fetchtopic/fetchpartition.go `FetchPartition` -/
def s_fetch_request_fetchtopic_FetchPartition : Sch :=
  .prim { lo := 0, hi := 32767, flo := 12, fhi := 32767, nlo := 0, nhi := 0 } false (.int 4) .none (   -- partition
  .prim { lo := 9, hi := 32767, flo := 12, fhi := 32767, nlo := 0, nhi := 0 } true (.int 4) (.int (-1)) (   -- currentLeaderEpoch
  .prim { lo := 0, hi := 32767, flo := 12, fhi := 32767, nlo := 0, nhi := 0 } false (.int 8) .none (   -- fetchOffset
  .prim { lo := 12, hi := 32767, flo := 12, fhi := 32767, nlo := 0, nhi := 0 } false (.int 4) (.int (-1)) (   -- lastFetchedEpoch
  .prim { lo := 5, hi := 32767, flo := 12, fhi := 32767, nlo := 0, nhi := 0 } true (.int 8) (.int (-1)) (   -- logStartOffset
  .prim { lo := 0, hi := 32767, flo := 12, fhi := 32767, nlo := 0, nhi := 0 } false (.int 4) .none (   -- partitionMaxBytes
  .nil))))))

/-- components/kafka-protocol-go/pkg/protocol/messages/fetch/request/fetchtopic.go `FetchTopic` -/
def s_fetch_request_FetchTopic : Sch :=
  .prim { lo := 0, hi := 12, flo := 12, fhi := 32767, nlo := 0, nhi := 0 } false (.str) .none (   -- topic
  .prim { lo := 13, hi := 32767, flo := 12, fhi := 32767, nlo := 0, nhi := 0 } true (.uuid) .none (   -- topicId
  .arrS { lo := 0, hi := 32767, flo := 12, fhi := 32767, nlo := 0, nhi := 0 } false (12) (32767) s_fetch_request_fetchtopic_FetchPartition (   -- partitions
  .nil)))

/-- components/kafka-protocol-go/pkg/protocol/messages/fetch/request/forgottentopic.go `ForgottenTopic` -/
def s_fetch_request_ForgottenTopic : Sch :=
  .prim { lo := 7, hi := 12, flo := 12, fhi := 32767, nlo := 0, nhi := 0 } true (.str) .none (   -- topic
  .prim { lo := 13, hi := 32767, flo := 12, fhi := 32767, nlo := 0, nhi := 0 } true (.uuid) .none (   -- topicId
  .arr { lo := 7, hi := 32767, flo := 12, fhi := 32767, nlo := 0, nhi := 0 } false (.int 4) (   -- partitions
  .nil)))

/-- components/kafka-protocol-go/pkg/protocol/messages/fetch/request.go `Request` -/
def s_fetch_Request : Sch :=
  .prim { lo := 12, hi := 32767, flo := 12, fhi := 32767, nlo := 12, nhi := 32767, tag := some 0, tlo := 12, thi := 32767 } true (.str) (.str [110, 117, 108, 108]) (   -- clusterId
  .prim { lo := 0, hi := 32767, flo := 12, fhi := 32767, nlo := 0, nhi := 0 } false (.int 4) .none (   -- replicaId
  .prim { lo := 0, hi := 32767, flo := 12, fhi := 32767, nlo := 0, nhi := 0 } false (.int 4) .none (   -- maxWaitMs
  .prim { lo := 0, hi := 32767, flo := 12, fhi := 32767, nlo := 0, nhi := 0 } false (.int 4) .none (   -- minBytes
  .prim { lo := 3, hi := 32767, flo := 12, fhi := 32767, nlo := 0, nhi := 0 } true (.int 4) (.int (2147483647)) (   -- maxBytes
  .prim { lo := 4, hi := 32767, flo := 12, fhi := 32767, nlo := 0, nhi := 0 } true (.int 1) .none (   -- isolationLevel
  .prim { lo := 7, hi := 32767, flo := 12, fhi := 32767, nlo := 0, nhi := 0 } true (.int 4) .none (   -- sessionId
  .prim { lo := 7, hi := 32767, flo := 12, fhi := 32767, nlo := 0, nhi := 0 } true (.int 4) (.int (-1)) (   -- sessionEpoch
  .arrS { lo := 0, hi := 32767, flo := 12, fhi := 32767, nlo := 0, nhi := 0 } false (12) (32767) s_fetch_request_FetchTopic (   -- topics
  .arrS { lo := 7, hi := 32767, flo := 12, fhi := 32767, nlo := 0, nhi := 0 } false (12) (32767) s_fetch_request_ForgottenTopic (   -- forgottenTopicsData
  .prim { lo := 11, hi := 32767, flo := 12, fhi := 32767, nlo := 0, nhi := 0 } true (.str) .none (   -- rackId
  .nil)))))))))))

/-- components/kafka-protocol-go/pkg/protocol/messages/fetch/response/fetchabletopicresponse/partitiondata/epochendoffset.go `EpochEndOffset` -/
def s_fetch_response_fetchabletopicresponse_partitiondata_EpochEndOffset : Sch :=
  .prim { lo := 12, hi := 32767, flo := 12, fhi := 32767, nlo := 0, nhi := 0 } false (.int 4) (.int (-1)) (   -- epoch
  .prim { lo := 12, hi := 32767, flo := 12, fhi := 32767, nlo := 0, nhi := 0 } false (.int 8) (.int (-1)) (   -- endOffset
  .nil))

/-- components/kafka-protocol-go/pkg/protocol/messages/fetch/response/fetchabletopicresponse/partitiondata/leaderidandepoch.go `LeaderIdAndEpoch` -/
def s_fetch_response_fetchabletopicresponse_partitiondata_LeaderIdAndEpoch : Sch :=
  .prim { lo := 12, hi := 32767, flo := 12, fhi := 32767, nlo := 0, nhi := 0 } false (.int 4) (.int (-1)) (   -- leaderId
  .prim { lo := 12, hi := 32767, flo := 12, fhi := 32767, nlo := 0, nhi := 0 } false (.int 4) (.int (-1)) (   -- leaderEpoch
  .nil))

/-- components/kafka-protocol-go/pkg/protocol/messages/fetch/response/fetchabletopicresponse/partitiondata/snapshotid.go `SnapshotId` -/
def s_fetch_response_fetchabletopicresponse_partitiondata_SnapshotId : Sch :=
  .prim { lo := 0, hi := 32767, flo := 12, fhi := 32767, nlo := 0, nhi := 0 } false (.int 8) (.int (-1)) (   -- endOffset
  .prim { lo := 0, hi := 32767, flo := 12, fhi := 32767, nlo := 0, nhi := 0 } false (.int 4) (.int (-1)) (   -- epoch
  .nil))

/-- components/kafka-protocol-go/pkg/protocol/messages/fetch/response/fetchabletopicresponse/partitiondata/abortedtransaction.go `AbortedTransaction` -/
def s_fetch_response_fetchabletopicresponse_partitiondata_AbortedTransaction : Sch :=
  .prim { lo := 4, hi := 32767, flo := 12, fhi := 32767, nlo := 4, nhi := 32767 } false (.int 8) .none (   -- producerId
  .prim { lo := 4, hi := 32767, flo := 12, fhi := 32767, nlo := 4, nhi := 32767 } false (.int 8) .none (   -- firstOffset
  .nil))

/-- components/kafka-protocol-go/pkg/protocol/messages/fetch/response/fetchabletopicresponse/partitiondata.go `PartitionData` -/
def s_fetch_response_fetchabletopicresponse_PartitionData : Sch :=
  .prim { lo := 0, hi := 32767, flo := 12, fhi := 32767, nlo := 0, nhi := 0 } false (.int 4) .none (   -- partitionIndex
  .prim { lo := 0, hi := 32767, flo := 12, fhi := 32767, nlo := 0, nhi := 0 } false (.int 2) .none (   -- errorCode
  .prim { lo := 0, hi := 32767, flo := 12, fhi := 32767, nlo := 0, nhi := 0 } false (.int 8) .none (   -- highWatermark
  .prim { lo := 4, hi := 32767, flo := 12, fhi := 32767, nlo := 0, nhi := 0 } true (.int 8) (.int (-1)) (   -- lastStableOffset
  .prim { lo := 5, hi := 32767, flo := 12, fhi := 32767, nlo := 0, nhi := 0 } true (.int 8) (.int (-1)) (   -- logStartOffset
  .struct { lo := 12, hi := 32767, flo := 12, fhi := 32767, nlo := 0, nhi := 0, tag := some 0, tlo := 12, thi := 32767 } false (12) (32767) s_fetch_response_fetchabletopicresponse_partitiondata_EpochEndOffset (   -- divergingEpoch
  .struct { lo := 12, hi := 32767, flo := 12, fhi := 32767, nlo := 0, nhi := 0, tag := some 1, tlo := 12, thi := 32767 } false (12) (32767) s_fetch_response_fetchabletopicresponse_partitiondata_LeaderIdAndEpoch (   -- currentLeader
  .struct { lo := 12, hi := 32767, flo := 12, fhi := 32767, nlo := 0, nhi := 0, tag := some 2, tlo := 12, thi := 32767 } false (12) (32767) s_fetch_response_fetchabletopicresponse_partitiondata_SnapshotId (   -- snapshotId
  .arrS { lo := 4, hi := 32767, flo := 12, fhi := 32767, nlo := 4, nhi := 32767 } true (12) (32767) s_fetch_response_fetchabletopicresponse_partitiondata_AbortedTransaction (   -- abortedTransactions
  .prim { lo := 11, hi := 32767, flo := 12, fhi := 32767, nlo := 0, nhi := 0 } false (.int 4) (.int (-1)) (   -- preferredReadReplica
  .prim { lo := 0, hi := 32767, flo := 12, fhi := 32767, nlo := 0, nhi := 32767 } false (.records) .none (   -- records
  .nil)))))))))))

/-- components/kafka-protocol-go/pkg/protocol/messages/fetch/response/fetchabletopicresponse.go `FetchableTopicResponse` -/
def s_fetch_response_FetchableTopicResponse : Sch :=
  .prim { lo := 0, hi := 12, flo := 12, fhi := 32767, nlo := 0, nhi := 0 } false (.str) .none (   -- topic
  .prim { lo := 13, hi := 32767, flo := 12, fhi := 32767, nlo := 0, nhi := 0 } true (.uuid) .none (   -- topicId
  .arrS { lo := 0, hi := 32767, flo := 12, fhi := 32767, nlo := 0, nhi := 0 } false (12) (32767) s_fetch_response_fetchabletopicresponse_PartitionData (   -- partitions
  .nil)))

/-- components/kafka-protocol-go/pkg/protocol/messages/fetch/response.go `Response` -/
def s_fetch_Response : Sch :=
  .prim { lo := 1, hi := 32767, flo := 12, fhi := 32767, nlo := 0, nhi := 0 } true (.int 4) .none (   -- throttleTimeMs
  .prim { lo := 7, hi := 32767, flo := 12, fhi := 32767, nlo := 0, nhi := 0 } true (.int 2) .none (   -- errorCode
  .prim { lo := 7, hi := 32767, flo := 12, fhi := 32767, nlo := 0, nhi := 0 } false (.int 4) .none (   -- sessionId
  .arrS { lo := 0, hi := 32767, flo := 12, fhi := 32767, nlo := 0, nhi := 0 } false (12) (32767) s_fetch_response_FetchableTopicResponse (   -- responses
  .nil))))

/-- components/kafka-protocol-go/pkg/protocol/messages/fetchsnapshot/request/topicsnapshot/partitionsnapshot/snapshotid.go `SnapshotId` -/
def s_fetchsnapshot_request_topicsnapshot_partitionsnapshot_SnapshotId : Sch :=
  .prim { lo := 0, hi := 32767, flo := 0, fhi := 32767, nlo := 0, nhi := 0 } false (.int 8) .none (   -- endOffset
  .prim { lo := 0, hi := 32767, flo := 0, fhi := 32767, nlo := 0, nhi := 0 } false (.int 4) .none (   -- epoch
  .nil))

/-- components/kafka-protocol-go/pkg/protocol/messages/fetchsnapshot/request/topicsnapshot/partitionsnapshot.go `PartitionSnapshot` -/
def s_fetchsnapshot_request_topicsnapshot_PartitionSnapshot : Sch :=
  .prim { lo := 0, hi := 32767, flo := 0, fhi := 32767, nlo := 0, nhi := 0 } false (.int 4) .none (   -- partition
  .prim { lo := 0, hi := 32767, flo := 0, fhi := 32767, nlo := 0, nhi := 0 } false (.int 4) .none (   -- currentLeaderEpoch
  .struct { lo := 0, hi := 32767, flo := 0, fhi := 32767, nlo := 0, nhi := 0 } false (0) (32767) s_fetchsnapshot_request_topicsnapshot_partitionsnapshot_SnapshotId (   -- snapshotId
  .prim { lo := 0, hi := 32767, flo := 0, fhi := 32767, nlo := 0, nhi := 0 } false (.int 8) .none (   -- position
  .nil))))

/-- components/kafka-protocol-go/pkg/protocol/messages/fetchsnapshot/request/topicsnapshot.go `TopicSnapshot` -/
def s_fetchsnapshot_request_TopicSnapshot : Sch :=
  .prim { lo := 0, hi := 32767, flo := 0, fhi := 32767, nlo := 0, nhi := 0 } false (.str) .none (   -- name
  .arrS { lo := 0, hi := 32767, flo := 0, fhi := 32767, nlo := 0, nhi := 0 } false (0) (32767) s_fetchsnapshot_request_topicsnapshot_PartitionSnapshot (   -- partitions
  .nil))

/-- components/kafka-protocol-go/pkg/protocol/messages/fetchsnapshot/request.go `Request` -/
def s_fetchsnapshot_Request : Sch :=
  .prim { lo := 0, hi := 32767, flo := 0, fhi := 32767, nlo := 0, nhi := 32767, tag := some 0, tlo := 0, thi := 32767 } false (.str) (.str [110, 117, 108, 108]) (   -- clusterId
  .prim { lo := 0, hi := 32767, flo := 0, fhi := 32767, nlo := 0, nhi := 0 } false (.int 4) (.int (-1)) (   -- replicaId
  .prim { lo := 0, hi := 32767, flo := 0, fhi := 32767, nlo := 0, nhi := 0 } false (.int 4) (.int (2147483647)) (   -- maxBytes
  .arrS { lo := 0, hi := 32767, flo := 0, fhi := 32767, nlo := 0, nhi := 0 } false (0) (32767) s_fetchsnapshot_request_TopicSnapshot (   -- topics
  .nil))))

/-- components/kafka-protocol-go/pkg/protocol/messages/fetchsnapshot/response/topicsnapshot/partitionsnapshot/snapshotid.go `SnapshotId` -/
def s_fetchsnapshot_response_topicsnapshot_partitionsnapshot_SnapshotId : Sch :=
  .prim { lo := 0, hi := 32767, flo := 0, fhi := 32767, nlo := 0, nhi := 0 } false (.int 8) .none (   -- endOffset
  .prim { lo := 0, hi := 32767, flo := 0, fhi := 32767, nlo := 0, nhi := 0 } false (.int 4) .none (   -- epoch
  .nil))

/-- components/kafka-protocol-go/pkg/protocol/messages/fetchsnapshot/response/topicsnapshot/partitionsnapshot/leaderidandepoch.go `LeaderIdAndEpoch` -/
def s_fetchsnapshot_response_topicsnapshot_partitionsnapshot_LeaderIdAndEpoch : Sch :=
  .prim { lo := 0, hi := 32767, flo := 0, fhi := 32767, nlo := 0, nhi := 0 } false (.int 4) .none (   -- leaderId
  .prim { lo := 0, hi := 32767, flo := 0, fhi := 32767, nlo := 0, nhi := 0 } false (.int 4) .none (   -- leaderEpoch
  .nil))

/-- components/kafka-protocol-go/pkg/protocol/messages/fetchsnapshot/response/topicsnapshot/partitionsnapshot.go `PartitionSnapshot` -/
def s_fetchsnapshot_response_topicsnapshot_PartitionSnapshot : Sch :=
  .prim { lo := 0, hi := 32767, flo := 0, fhi := 32767, nlo := 0, nhi := 0 } false (.int 4) .none (   -- index
  .prim { lo := 0, hi := 32767, flo := 0, fhi := 32767, nlo := 0, nhi := 0 } false (.int 2) .none (   -- errorCode
  .struct { lo := 0, hi := 32767, flo := 0, fhi := 32767, nlo := 0, nhi := 0 } false (0) (32767) s_fetchsnapshot_response_topicsnapshot_partitionsnapshot_SnapshotId (   -- snapshotId
  .struct { lo := 0, hi := 32767, flo := 0, fhi := 32767, nlo := 0, nhi := 0, tag := some 0, tlo := 0, thi := 32767 } false (0) (32767) s_fetchsnapshot_response_topicsnapshot_partitionsnapshot_LeaderIdAndEpoch (   -- currentLeader
  .prim { lo := 0, hi := 32767, flo := 0, fhi := 32767, nlo := 0, nhi := 0 } false (.int 8) .none (   -- size
  .prim { lo := 0, hi := 32767, flo := 0, fhi := 32767, nlo := 0, nhi := 0 } false (.int 8) .none (   -- position
  .prim { lo := 0, hi := 32767, flo := 0, fhi := 32767, nlo := 0, nhi := 0 } false (.records) .none (   -- unalignedRecords
  .nil)))))))

/-- components/kafka-protocol-go/pkg/protocol/messages/fetchsnapshot/response/topicsnapshot.go `TopicSnapshot` -/
def s_fetchsnapshot_response_TopicSnapshot : Sch :=
  .prim { lo := 0, hi := 32767, flo := 0, fhi := 32767, nlo := 0, nhi := 0 } false (.str) .none (   -- name
  .arrS { lo := 0, hi := 32767, flo := 0, fhi := 32767, nlo := 0, nhi := 0 } false (0) (32767) s_fetchsnapshot_response_topicsnapshot_PartitionSnapshot (   -- partitions
  .nil))

/-- components/kafka-protocol-go/pkg/protocol/messages/fetchsnapshot/response.go `Response` -/
def s_fetchsnapshot_Response : Sch :=
  .prim { lo := 0, hi := 32767, flo := 0, fhi := 32767, nlo := 0, nhi := 0 } false (.int 4) .none (   -- throttleTimeMs
  .prim { lo := 0, hi := 32767, flo := 0, fhi := 32767, nlo := 0, nhi := 0 } false (.int 2) .none (   -- errorCode
  .arrS { lo := 0, hi := 32767, flo := 0, fhi := 32767, nlo := 0, nhi := 0 } false (0) (32767) s_fetchsnapshot_response_TopicSnapshot (   -- topics
  .nil)))

/-- components/kafka-protocol-go/pkg/protocol/messages/findcoordinator/request.go `Request` -/
def s_findcoordinator_Request : Sch :=
  .prim { lo := 0, hi := 3, flo := 3, fhi := 32767, nlo := 0, nhi := 0 } false (.str) .none (   -- key
  .prim { lo := 1, hi := 32767, flo := 3, fhi := 32767, nlo := 0, nhi := 0 } false (.int 1) .none (   -- keyType
  .arr { lo := 4, hi := 32767, flo := 3, fhi := 32767, nlo := 0, nhi := 0 } false (.str) (   -- coordinatorKeys
  .nil)))

/-- components/kafka-protocol-go/pkg/protocol/messages/findcoordinator/response/coordinator.go `Coordinator` -/
def s_findcoordinator_response_Coordinator : Sch :=
  .prim { lo := 4, hi := 32767, flo := 3, fhi := 32767, nlo := 0, nhi := 0 } false (.str) .none (   -- key
  .prim { lo := 4, hi := 32767, flo := 3, fhi := 32767, nlo := 0, nhi := 0 } false (.int 4) .none (   -- nodeId
  .prim { lo := 4, hi := 32767, flo := 3, fhi := 32767, nlo := 0, nhi := 0 } false (.str) .none (   -- host
  .prim { lo := 4, hi := 32767, flo := 3, fhi := 32767, nlo := 0, nhi := 0 } false (.int 4) .none (   -- port
  .prim { lo := 4, hi := 32767, flo := 3, fhi := 32767, nlo := 0, nhi := 0 } false (.int 2) .none (   -- errorCode
  .prim { lo := 4, hi := 32767, flo := 3, fhi := 32767, nlo := 4, nhi := 32767 } true (.str) .none (   -- errorMessage
  .nil))))))

/-- components/kafka-protocol-go/pkg/protocol/messages/findcoordinator/response.go `Response` -/
def s_findcoordinator_Response : Sch :=
  .prim { lo := 1, hi := 32767, flo := 3, fhi := 32767, nlo := 0, nhi := 0 } true (.int 4) .none (   -- throttleTimeMs
  .prim { lo := 0, hi := 3, flo := 3, fhi := 32767, nlo := 0, nhi := 0 } false (.int 2) .none (   -- errorCode
  .prim { lo := 1, hi := 3, flo := 3, fhi := 32767, nlo := 1, nhi := 3 } true (.str) .none (   -- errorMessage
  .prim { lo := 0, hi := 3, flo := 3, fhi := 32767, nlo := 0, nhi := 0 } false (.int 4) .none (   -- nodeId
  .prim { lo := 0, hi := 3, flo := 3, fhi := 32767, nlo := 0, nhi := 0 } false (.str) .none (   -- host
  .prim { lo := 0, hi := 3, flo := 3, fhi := 32767, nlo := 0, nhi := 0 } false (.int 4) .none (   -- port
  .arrS { lo := 4, hi := 32767, flo := 3, fhi := 32767, nlo := 0, nhi := 0 } false (3) (32767) s_findcoordinator_response_Coordinator (   -- coordinators
  .nil)))))))

/-- components/kafka-protocol-go/pkg/protocol/messages/heartbeat/request.go `Request` -/
def s_heartbeat_Request : Sch :=
  .prim { lo := 0, hi := 32767, flo := 4, fhi := 32767, nlo := 0, nhi := 0 } false (.str) .none (   -- groupId
  .prim { lo := 0, hi := 32767, flo := 4, fhi := 32767, nlo := 0, nhi := 0 } false (.int 4) .none (   -- generationId
  .prim { lo := 0, hi := 32767, flo := 4, fhi := 32767, nlo := 0, nhi := 0 } false (.str) .none (   -- memberId
  .prim { lo := 3, hi := 32767, flo := 4, fhi := 32767, nlo := 3, nhi := 32767 } false (.str) (.str [110, 117, 108, 108]) (   -- groupInstanceId
  .nil))))

/-- components/kafka-protocol-go/pkg/protocol/messages/heartbeat/response.go `Response` -/
def s_heartbeat_Response : Sch :=
  .prim { lo := 1, hi := 32767, flo := 4, fhi := 32767, nlo := 0, nhi := 0 } true (.int 4) .none (   -- throttleTimeMs
  .prim { lo := 0, hi := 32767, flo := 4, fhi := 32767, nlo := 0, nhi := 0 } false (.int 2) .none (   -- errorCode
  .nil))

/-- components/kafka-protocol-go/pkg/protocol/messages/incrementalalterconfigs/request/alterconfigsresource/alterableconfig.go `AlterableConfig` -/
def s_incrementalalterconfigs_request_alterconfigsresource_AlterableConfig : Sch :=
  .prim { lo := 0, hi := 32767, flo := 1, fhi := 32767, nlo := 0, nhi := 0 } false (.str) .none (   -- name
  .prim { lo := 0, hi := 32767, flo := 1, fhi := 32767, nlo := 0, nhi := 0 } false (.int 1) .none (   -- configOperation
  .prim { lo := 0, hi := 32767, flo := 1, fhi := 32767, nlo := 0, nhi := 32767 } false (.str) .none (   -- value
  .nil)))

/-- components/kafka-protocol-go/pkg/protocol/messages/incrementalalterconfigs/request/alterconfigsresource.go `AlterConfigsResource` -/
def s_incrementalalterconfigs_request_AlterConfigsResource : Sch :=
  .prim { lo := 0, hi := 32767, flo := 1, fhi := 32767, nlo := 0, nhi := 0 } false (.int 1) .none (   -- resourceType
  .prim { lo := 0, hi := 32767, flo := 1, fhi := 32767, nlo := 0, nhi := 0 } false (.str) .none (   -- resourceName
  .arrS { lo := 0, hi := 32767, flo := 1, fhi := 32767, nlo := 0, nhi := 0 } false (1) (32767) s_incrementalalterconfigs_request_alterconfigsresource_AlterableConfig (   -- configs
  .nil)))

/-- components/kafka-protocol-go/pkg/protocol/messages/incrementalalterconfigs/request.go `Request` -/
def s_incrementalalterconfigs_Request : Sch :=
  .arrS { lo := 0, hi := 32767, flo := 1, fhi := 32767, nlo := 0, nhi := 0 } false (1) (32767) s_incrementalalterconfigs_request_AlterConfigsResource (   -- resources
  .prim { lo := 0, hi := 32767, flo := 1, fhi := 32767, nlo := 0, nhi := 0 } false (.bool) .none (   -- validateOnly
  .nil))

/-- components/kafka-protocol-go/pkg/protocol/messages/incrementalalterconfigs/response/alterconfigsresourceresponse.go `AlterConfigsResourceResponse` -/
def s_incrementalalterconfigs_response_AlterConfigsResourceResponse : Sch :=
  .prim { lo := 0, hi := 32767, flo := 1, fhi := 32767, nlo := 0, nhi := 0 } false (.int 2) .none (   -- errorCode
  .prim { lo := 0, hi := 32767, flo := 1, fhi := 32767, nlo := 0, nhi := 32767 } false (.str) .none (   -- errorMessage
  .prim { lo := 0, hi := 32767, flo := 1, fhi := 32767, nlo := 0, nhi := 0 } false (.int 1) .none (   -- resourceType
  .prim { lo := 0, hi := 32767, flo := 1, fhi := 32767, nlo := 0, nhi := 0 } false (.str) .none (   -- resourceName
  .nil))))

/-- components/kafka-protocol-go/pkg/protocol/messages/incrementalalterconfigs/response.go `Response` -/
def s_incrementalalterconfigs_Response : Sch :=
  .prim { lo := 0, hi := 32767, flo := 1, fhi := 32767, nlo := 0, nhi := 0 } false (.int 4) .none (   -- throttleTimeMs
  .arrS { lo := 0, hi := 32767, flo := 1, fhi := 32767, nlo := 0, nhi := 0 } false (1) (32767) s_incrementalalterconfigs_response_AlterConfigsResourceResponse (   -- responses
  .nil))

/-- components/kafka-protocol-go/pkg/protocol/messages/initproducerid/request.go `Request` -/
def s_initproducerid_Request : Sch :=
  .prim { lo := 0, hi := 32767, flo := 2, fhi := 32767, nlo := 0, nhi := 32767 } false (.str) .none (   -- transactionalId
  .prim { lo := 0, hi := 32767, flo := 2, fhi := 32767, nlo := 0, nhi := 0 } false (.int 4) .none (   -- transactionTimeoutMs
  .prim { lo := 3, hi := 32767, flo := 2, fhi := 32767, nlo := 0, nhi := 0 } false (.int 8) (.int (-1)) (   -- producerId
  .prim { lo := 3, hi := 32767, flo := 2, fhi := 32767, nlo := 0, nhi := 0 } false (.int 2) (.int (-1)) (   -- producerEpoch
  .nil))))

/-- components/kafka-protocol-go/pkg/protocol/messages/initproducerid/response.go `Response` -/
def s_initproducerid_Response : Sch :=
  .prim { lo := 0, hi := 32767, flo := 2, fhi := 32767, nlo := 0, nhi := 0 } false (.int 4) .none (   -- throttleTimeMs
  .prim { lo := 0, hi := 32767, flo := 2, fhi := 32767, nlo := 0, nhi := 0 } false (.int 2) .none (   -- errorCode
  .prim { lo := 0, hi := 32767, flo := 2, fhi := 32767, nlo := 0, nhi := 0 } false (.int 8) (.int (-1)) (   -- producerId
  .prim { lo := 0, hi := 32767, flo := 2, fhi := 32767, nlo := 0, nhi := 0 } false (.int 2) .none (   -- producerEpoch
  .nil))))

/-- components/kafka-protocol-go/pkg/protocol/messages/joingroup/request/joingrouprequestprotocol.go `JoinGroupRequestProtocol` -/
def s_joingroup_request_JoinGroupRequestProtocol : Sch :=
  .prim { lo := 0, hi := 32767, flo := 6, fhi := 32767, nlo := 0, nhi := 0 } false (.str) .none (   -- name
  .prim { lo := 0, hi := 32767, flo := 6, fhi := 32767, nlo := 0, nhi := 0 } false (.bytes) .none (   -- metadata
  .nil))

/-- components/kafka-protocol-go/pkg/protocol/messages/joingroup/request.go `Request` -/
def s_joingroup_Request : Sch :=
  .prim { lo := 0, hi := 32767, flo := 6, fhi := 32767, nlo := 0, nhi := 0 } false (.str) .none (   -- groupId
  .prim { lo := 0, hi := 32767, flo := 6, fhi := 32767, nlo := 0, nhi := 0 } false (.int 4) .none (   -- sessionTimeoutMs
  .prim { lo := 1, hi := 32767, flo := 6, fhi := 32767, nlo := 0, nhi := 0 } true (.int 4) (.int (-1)) (   -- rebalanceTimeoutMs
  .prim { lo := 0, hi := 32767, flo := 6, fhi := 32767, nlo := 0, nhi := 0 } false (.str) .none (   -- memberId
  .prim { lo := 5, hi := 32767, flo := 6, fhi := 32767, nlo := 5, nhi := 32767 } false (.str) (.str [110, 117, 108, 108]) (   -- groupInstanceId
  .prim { lo := 0, hi := 32767, flo := 6, fhi := 32767, nlo := 0, nhi := 0 } false (.str) .none (   -- protocolType
  .arrS { lo := 0, hi := 32767, flo := 6, fhi := 32767, nlo := 0, nhi := 0 } false (6) (32767) s_joingroup_request_JoinGroupRequestProtocol (   -- protocols
  .prim { lo := 8, hi := 32767, flo := 6, fhi := 32767, nlo := 8, nhi := 32767 } true (.str) (.str [110, 117, 108, 108]) (   -- reason
  .nil))))))))

/-- components/kafka-protocol-go/pkg/protocol/messages/joingroup/response/joingroupresponsemember.go `JoinGroupResponseMember` -/
def s_joingroup_response_JoinGroupResponseMember : Sch :=
  .prim { lo := 0, hi := 32767, flo := 6, fhi := 32767, nlo := 0, nhi := 0 } false (.str) .none (   -- memberId
  .prim { lo := 5, hi := 32767, flo := 6, fhi := 32767, nlo := 5, nhi := 32767 } true (.str) (.str [110, 117, 108, 108]) (   -- groupInstanceId
  .prim { lo := 0, hi := 32767, flo := 6, fhi := 32767, nlo := 0, nhi := 0 } false (.bytes) .none (   -- metadata
  .nil)))

/-- components/kafka-protocol-go/pkg/protocol/messages/joingroup/response.go `Response` -/
def s_joingroup_Response : Sch :=
  .prim { lo := 2, hi := 32767, flo := 6, fhi := 32767, nlo := 0, nhi := 0 } true (.int 4) .none (   -- throttleTimeMs
  .prim { lo := 0, hi := 32767, flo := 6, fhi := 32767, nlo := 0, nhi := 0 } false (.int 2) .none (   -- errorCode
  .prim { lo := 0, hi := 32767, flo := 6, fhi := 32767, nlo := 0, nhi := 0 } false (.int 4) (.int (-1)) (   -- generationId
  .prim { lo := 7, hi := 32767, flo := 6, fhi := 32767, nlo := 7, nhi := 32767 } true (.str) (.str [110, 117, 108, 108]) (   -- protocolType
  .prim { lo := 0, hi := 32767, flo := 6, fhi := 32767, nlo := 7, nhi := 32767 } false (.str) .none (   -- protocolName
  .prim { lo := 0, hi := 32767, flo := 6, fhi := 32767, nlo := 0, nhi := 0 } false (.str) .none (   -- leader
  .prim { lo := 9, hi := 32767, flo := 6, fhi := 32767, nlo := 0, nhi := 0 } false (.bool) .none (   -- skipAssignment
  .prim { lo := 0, hi := 32767, flo := 6, fhi := 32767, nlo := 0, nhi := 0 } false (.str) .none (   -- memberId
  .arrS { lo := 0, hi := 32767, flo := 6, fhi := 32767, nlo := 0, nhi := 0 } false (6) (32767) s_joingroup_response_JoinGroupResponseMember (   -- members
  .nil)))))))))

/-- components/kafka-protocol-go/pkg/protocol/messages/leaderandisr/common/leaderandisrpartitionstate.go `LeaderAndIsrPartitionState` -/
def s_leaderandisr_common_LeaderAndIsrPartitionState : Sch :=
  .prim { lo := 0, hi := 1, flo := 4, fhi := 32767, nlo := 0, nhi := 0 } false (.str) .none (   -- topicName
  .prim { lo := 0, hi := 32767, flo := 4, fhi := 32767, nlo := 0, nhi := 0 } false (.int 4) .none (   -- partitionIndex
  .prim { lo := 0, hi := 32767, flo := 4, fhi := 32767, nlo := 0, nhi := 0 } false (.int 4) .none (   -- controllerEpoch
  .prim { lo := 0, hi := 32767, flo := 4, fhi := 32767, nlo := 0, nhi := 0 } false (.int 4) .none (   -- leader
  .prim { lo := 0, hi := 32767, flo := 4, fhi := 32767, nlo := 0, nhi := 0 } false (.int 4) .none (   -- leaderEpoch
  .arr { lo := 0, hi := 32767, flo := 4, fhi := 32767, nlo := 0, nhi := 0 } false (.int 4) (   -- isr
  .prim { lo := 0, hi := 32767, flo := 4, fhi := 32767, nlo := 0, nhi := 0 } false (.int 4) .none (   -- partitionEpoch
  .arr { lo := 0, hi := 32767, flo := 4, fhi := 32767, nlo := 0, nhi := 0 } false (.int 4) (   -- replicas
  .arr { lo := 3, hi := 32767, flo := 4, fhi := 32767, nlo := 0, nhi := 0 } true (.int 4) (   -- addingReplicas
  .arr { lo := 3, hi := 32767, flo := 4, fhi := 32767, nlo := 0, nhi := 0 } true (.int 4) (   -- removingReplicas
  .prim { lo := 1, hi := 32767, flo := 4, fhi := 32767, nlo := 0, nhi := 0 } true (.bool) .none (   -- isNew
  .prim { lo := 6, hi := 32767, flo := 4, fhi := 32767, nlo := 0, nhi := 0 } false (.int 1) .none (   -- leaderRecoveryState
  .nil))))))))))))

/-- components/kafka-protocol-go/pkg/protocol/messages/leaderandisr/request/leaderandisrtopicstate.go `LeaderAndIsrTopicState` -/
def s_leaderandisr_request_LeaderAndIsrTopicState : Sch :=
  .prim { lo := 2, hi := 32767, flo := 4, fhi := 32767, nlo := 0, nhi := 0 } false (.str) .none (   -- topicName
  .prim { lo := 5, hi := 32767, flo := 4, fhi := 32767, nlo := 0, nhi := 0 } true (.uuid) .none (   -- topicId
  .arrS { lo := 2, hi := 32767, flo := 4, fhi := 32767, nlo := 0, nhi := 0 } false (4) (32767) s_leaderandisr_common_LeaderAndIsrPartitionState (   -- partitionStates
  .nil)))

/-- components/kafka-protocol-go/pkg/protocol/messages/leaderandisr/request/leaderandisrliveleader.go `LeaderAndIsrLiveLeader` -/
def s_leaderandisr_request_LeaderAndIsrLiveLeader : Sch :=
  .prim { lo := 0, hi := 32767, flo := 4, fhi := 32767, nlo := 0, nhi := 0 } false (.int 4) .none (   -- brokerId
  .prim { lo := 0, hi := 32767, flo := 4, fhi := 32767, nlo := 0, nhi := 0 } false (.str) .none (   -- hostName
  .prim { lo := 0, hi := 32767, flo := 4, fhi := 32767, nlo := 0, nhi := 0 } false (.int 4) .none (   -- port
  .nil)))

/-- components/kafka-protocol-go/pkg/protocol/messages/leaderandisr/request.go `Request` -/
def s_leaderandisr_Request : Sch :=
  .prim { lo := 0, hi := 32767, flo := 4, fhi := 32767, nlo := 0, nhi := 0 } false (.int 4) .none (   -- controllerId
  .prim { lo := 7, hi := 32767, flo := 4, fhi := 32767, nlo := 0, nhi := 0 } false (.bool) .none (   -- isKRaftController
  .prim { lo := 0, hi := 32767, flo := 4, fhi := 32767, nlo := 0, nhi := 0 } false (.int 4) .none (   -- controllerEpoch
  .prim { lo := 2, hi := 32767, flo := 4, fhi := 32767, nlo := 0, nhi := 0 } true (.int 8) (.int (-1)) (   -- brokerEpoch
  .prim { lo := 5, hi := 32767, flo := 4, fhi := 32767, nlo := 0, nhi := 0 } false (.int 1) .none (   -- _type
  .arrS { lo := 0, hi := 1, flo := 4, fhi := 32767, nlo := 0, nhi := 0 } false (4) (32767) s_leaderandisr_common_LeaderAndIsrPartitionState (   -- ungroupedPartitionStates
  .arrS { lo := 2, hi := 32767, flo := 4, fhi := 32767, nlo := 0, nhi := 0 } false (4) (32767) s_leaderandisr_request_LeaderAndIsrTopicState (   -- topicStates
  .arrS { lo := 0, hi := 32767, flo := 4, fhi := 32767, nlo := 0, nhi := 0 } false (4) (32767) s_leaderandisr_request_LeaderAndIsrLiveLeader (   -- liveLeaders
  .nil))))))))

/-- components/kafka-protocol-go/pkg/protocol/messages/leaderandisr/common/leaderandisrpartitionerror.go `LeaderAndIsrPartitionError` -/
def s_leaderandisr_common_LeaderAndIsrPartitionError : Sch :=
  .prim { lo := 0, hi := 4, flo := 4, fhi := 32767, nlo := 0, nhi := 0 } false (.str) .none (   -- topicName
  .prim { lo := 0, hi := 32767, flo := 4, fhi := 32767, nlo := 0, nhi := 0 } false (.int 4) .none (   -- partitionIndex
  .prim { lo := 0, hi := 32767, flo := 4, fhi := 32767, nlo := 0, nhi := 0 } false (.int 2) .none (   -- errorCode
  .nil)))

/-- components/kafka-protocol-go/pkg/protocol/messages/leaderandisr/response/leaderandisrtopicerror.go `LeaderAndIsrTopicError` -/
def s_leaderandisr_response_LeaderAndIsrTopicError : Sch :=
  .prim { lo := 5, hi := 32767, flo := 4, fhi := 32767, nlo := 0, nhi := 0 } false (.uuid) .none (   -- topicId
  .arrS { lo := 5, hi := 32767, flo := 4, fhi := 32767, nlo := 0, nhi := 0 } false (4) (32767) s_leaderandisr_common_LeaderAndIsrPartitionError (   -- partitionErrors
  .nil))

/-- components/kafka-protocol-go/pkg/protocol/messages/leaderandisr/response.go `Response` -/
def s_leaderandisr_Response : Sch :=
  .prim { lo := 0, hi := 32767, flo := 4, fhi := 32767, nlo := 0, nhi := 0 } false (.int 2) .none (   -- errorCode
  .arrS { lo := 0, hi := 4, flo := 4, fhi := 32767, nlo := 0, nhi := 0 } false (4) (32767) s_leaderandisr_common_LeaderAndIsrPartitionError (   -- partitionErrors
  .arrS { lo := 5, hi := 32767, flo := 4, fhi := 32767, nlo := 0, nhi := 0 } false (4) (32767) s_leaderandisr_response_LeaderAndIsrTopicError (   -- topics
  .nil)))

/-- components/kafka-protocol-go/pkg/protocol/messages/leavegroup/request/memberidentity.go `MemberIdentity` -/
def s_leavegroup_request_MemberIdentity : Sch :=
  .prim { lo := 3, hi := 32767, flo := 4, fhi := 32767, nlo := 0, nhi := 0 } false (.str) .none (   -- memberId
  .prim { lo := 3, hi := 32767, flo := 4, fhi := 32767, nlo := 3, nhi := 32767 } false (.str) (.str [110, 117, 108, 108]) (   -- groupInstanceId
  .prim { lo := 5, hi := 32767, flo := 4, fhi := 32767, nlo := 5, nhi := 32767 } true (.str) (.str [110, 117, 108, 108]) (   -- reason
  .nil)))

/-- components/kafka-protocol-go/pkg/protocol/messages/leavegroup/request.go `Request` -/
def s_leavegroup_Request : Sch :=
  .prim { lo := 0, hi := 32767, flo := 4, fhi := 32767, nlo := 0, nhi := 0 } false (.str) .none (   -- groupId
  .prim { lo := 0, hi := 2, flo := 4, fhi := 32767, nlo := 0, nhi := 0 } false (.str) .none (   -- memberId
  .arrS { lo := 3, hi := 32767, flo := 4, fhi := 32767, nlo := 0, nhi := 0 } false (4) (32767) s_leavegroup_request_MemberIdentity (   -- members
  .nil)))

/-- components/kafka-protocol-go/pkg/protocol/messages/leavegroup/response/memberresponse.go `MemberResponse` -/
def s_leavegroup_response_MemberResponse : Sch :=
  .prim { lo := 3, hi := 32767, flo := 4, fhi := 32767, nlo := 0, nhi := 0 } false (.str) .none (   -- memberId
  .prim { lo := 3, hi := 32767, flo := 4, fhi := 32767, nlo := 3, nhi := 32767 } false (.str) .none (   -- groupInstanceId
  .prim { lo := 3, hi := 32767, flo := 4, fhi := 32767, nlo := 0, nhi := 0 } false (.int 2) .none (   -- errorCode
  .nil)))

/-- components/kafka-protocol-go/pkg/protocol/messages/leavegroup/response.go `Response` -/
def s_leavegroup_Response : Sch :=
  .prim { lo := 1, hi := 32767, flo := 4, fhi := 32767, nlo := 0, nhi := 0 } true (.int 4) .none (   -- throttleTimeMs
  .prim { lo := 0, hi := 32767, flo := 4, fhi := 32767, nlo := 0, nhi := 0 } false (.int 2) .none (   -- errorCode
  .arrS { lo := 3, hi := 32767, flo := 4, fhi := 32767, nlo := 0, nhi := 0 } false (4) (32767) s_leavegroup_response_MemberResponse (   -- members
  .nil)))

/-- components/kafka-protocol-go/pkg/protocol/messages/listgroups/request.go `Request` -/
def s_listgroups_Request : Sch :=
  .arr { lo := 4, hi := 32767, flo := 3, fhi := 32767, nlo := 0, nhi := 0 } false (.str) (   -- statesFilter
  .nil)

/-- components/kafka-protocol-go/pkg/protocol/messages/listgroups/response/listedgroup.go `ListedGroup` -/
def s_listgroups_response_ListedGroup : Sch :=
  .prim { lo := 0, hi := 32767, flo := 3, fhi := 32767, nlo := 0, nhi := 0 } false (.str) .none (   -- groupId
  .prim { lo := 0, hi := 32767, flo := 3, fhi := 32767, nlo := 0, nhi := 0 } false (.str) .none (   -- protocolType
  .prim { lo := 4, hi := 32767, flo := 3, fhi := 32767, nlo := 0, nhi := 0 } true (.str) .none (   -- groupState
  .nil)))

/-- components/kafka-protocol-go/pkg/protocol/messages/listgroups/response.go `Response` -/
def s_listgroups_Response : Sch :=
  .prim { lo := 1, hi := 32767, flo := 3, fhi := 32767, nlo := 0, nhi := 0 } true (.int 4) .none (   -- throttleTimeMs
  .prim { lo := 0, hi := 32767, flo := 3, fhi := 32767, nlo := 0, nhi := 0 } false (.int 2) .none (   -- errorCode
  .arrS { lo := 0, hi := 32767, flo := 3, fhi := 32767, nlo := 0, nhi := 0 } false (3) (32767) s_listgroups_response_ListedGroup (   -- groups
  .nil)))

/-- components/kafka-protocol-go/pkg/protocol/messages/listoffsets/request/listoffsetstopic/listoffsetspartition.go `ListOffsetsPartition` -/
def s_listoffsets_request_listoffsetstopic_ListOffsetsPartition : Sch :=
  .prim { lo := 0, hi := 32767, flo := 6, fhi := 32767, nlo := 0, nhi := 0 } false (.int 4) .none (   -- partitionIndex
  .prim { lo := 4, hi := 32767, flo := 6, fhi := 32767, nlo := 0, nhi := 0 } true (.int 4) (.int (-1)) (   -- currentLeaderEpoch
  .prim { lo := 0, hi := 32767, flo := 6, fhi := 32767, nlo := 0, nhi := 0 } false (.int 8) .none (   -- timestamp
  .prim { lo := 0, hi := 0, flo := 6, fhi := 32767, nlo := 0, nhi := 0 } false (.int 4) (.int (1)) (   -- maxNumOffsets
  .nil))))

/-- components/kafka-protocol-go/pkg/protocol/messages/listoffsets/request/listoffsetstopic.go `ListOffsetsTopic` -/
def s_listoffsets_request_ListOffsetsTopic : Sch :=
  .prim { lo := 0, hi := 32767, flo := 6, fhi := 32767, nlo := 0, nhi := 0 } false (.str) .none (   -- name
  .arrS { lo := 0, hi := 32767, flo := 6, fhi := 32767, nlo := 0, nhi := 0 } false (6) (32767) s_listoffsets_request_listoffsetstopic_ListOffsetsPartition (   -- partitions
  .nil))

/-- components/kafka-protocol-go/pkg/protocol/messages/listoffsets/request.go `Request` -/
def s_listoffsets_Request : Sch :=
  .prim { lo := 0, hi := 32767, flo := 6, fhi := 32767, nlo := 0, nhi := 0 } false (.int 4) .none (   -- replicaId
  .prim { lo := 2, hi := 32767, flo := 6, fhi := 32767, nlo := 0, nhi := 0 } false (.int 1) .none (   -- isolationLevel
  .arrS { lo := 0, hi := 32767, flo := 6, fhi := 32767, nlo := 0, nhi := 0 } false (6) (32767) s_listoffsets_request_ListOffsetsTopic (   -- topics
  .nil)))

/-- components/kafka-protocol-go/pkg/protocol/messages/listoffsets/response/listoffsetstopicresponse/listoffsetspartitionresponse.go `ListOffsetsPartitionResponse` -/
def s_listoffsets_response_listoffsetstopicresponse_ListOffsetsPartitionResponse : Sch :=
  .prim { lo := 0, hi := 32767, flo := 6, fhi := 32767, nlo := 0, nhi := 0 } false (.int 4) .none (   -- partitionIndex
  .prim { lo := 0, hi := 32767, flo := 6, fhi := 32767, nlo := 0, nhi := 0 } false (.int 2) .none (   -- errorCode
  .arr { lo := 0, hi := 0, flo := 6, fhi := 32767, nlo := 0, nhi := 0 } false (.int 8) (   -- oldStyleOffsets
  .prim { lo := 1, hi := 32767, flo := 6, fhi := 32767, nlo := 0, nhi := 0 } false (.int 8) (.int (-1)) (   -- timestamp
  .prim { lo := 1, hi := 32767, flo := 6, fhi := 32767, nlo := 0, nhi := 0 } false (.int 8) (.int (-1)) (   -- offset
  .prim { lo := 4, hi := 32767, flo := 6, fhi := 32767, nlo := 0, nhi := 0 } false (.int 4) (.int (-1)) (   -- leaderEpoch
  .nil))))))

/-- components/kafka-protocol-go/pkg/protocol/messages/listoffsets/response/listoffsetstopicresponse.go `ListOffsetsTopicResponse` -/
def s_listoffsets_response_ListOffsetsTopicResponse : Sch :=
  .prim { lo := 0, hi := 32767, flo := 6, fhi := 32767, nlo := 0, nhi := 0 } false (.str) .none (   -- name
  .arrS { lo := 0, hi := 32767, flo := 6, fhi := 32767, nlo := 0, nhi := 0 } false (6) (32767) s_listoffsets_response_listoffsetstopicresponse_ListOffsetsPartitionResponse (   -- partitions
  .nil))

/-- components/kafka-protocol-go/pkg/protocol/messages/listoffsets/response.go `Response` -/
def s_listoffsets_Response : Sch :=
  .prim { lo := 2, hi := 32767, flo := 6, fhi := 32767, nlo := 0, nhi := 0 } true (.int 4) .none (   -- throttleTimeMs
  .arrS { lo := 0, hi := 32767, flo := 6, fhi := 32767, nlo := 0, nhi := 0 } false (6) (32767) s_listoffsets_response_ListOffsetsTopicResponse (   -- topics
  .nil))

/-- components/kafka-protocol-go/pkg/protocol/messages/listpartitionreassignments/request/listpartitionreassignmentstopics.go `ListPartitionReassignmentsTopics` -/
def s_listpartitionreassignments_request_ListPartitionReassignmentsTopics : Sch :=
  .prim { lo := 0, hi := 32767, flo := 0, fhi := 32767, nlo := 0, nhi := 32767 } false (.str) .none (   -- name
  .arr { lo := 0, hi := 32767, flo := 0, fhi := 32767, nlo := 0, nhi := 32767 } false (.int 4) (   -- partitionIndexes
  .nil))

/-- components/kafka-protocol-go/pkg/protocol/messages/listpartitionreassignments/request.go `Request` -/
def s_listpartitionreassignments_Request : Sch :=
  .prim { lo := 0, hi := 32767, flo := 0, fhi := 32767, nlo := 0, nhi := 0 } false (.int 4) (.int (60000)) (   -- timeoutMs
  .arrS { lo := 0, hi := 32767, flo := 0, fhi := 32767, nlo := 0, nhi := 32767 } false (0) (32767) s_listpartitionreassignments_request_ListPartitionReassignmentsTopics (   -- topics
  .nil))

/-- components/kafka-protocol-go/pkg/protocol/messages/listpartitionreassignments/response/ongoingtopicreassignment/ongoingpartitionreassignment.go `OngoingPartitionReassignment` -/
def s_listpartitionreassignments_response_ongoingtopicreassignment_OngoingPartitionReassignment : Sch :=
  .prim { lo := 0, hi := 32767, flo := 0, fhi := 32767, nlo := 0, nhi := 0 } false (.int 4) .none (   -- partitionIndex
  .arr { lo := 0, hi := 32767, flo := 0, fhi := 32767, nlo := 0, nhi := 0 } false (.int 4) (   -- replicas
  .arr { lo := 0, hi := 32767, flo := 0, fhi := 32767, nlo := 0, nhi := 0 } false (.int 4) (   -- addingReplicas
  .arr { lo := 0, hi := 32767, flo := 0, fhi := 32767, nlo := 0, nhi := 0 } false (.int 4) (   -- removingReplicas
  .nil))))

/-- components/kafka-protocol-go/pkg/protocol/messages/listpartitionreassignments/response/ongoingtopicreassignment.go `OngoingTopicReassignment` -/
def s_listpartitionreassignments_response_OngoingTopicReassignment : Sch :=
  .prim { lo := 0, hi := 32767, flo := 0, fhi := 32767, nlo := 0, nhi := 0 } false (.str) .none (   -- name
  .arrS { lo := 0, hi := 32767, flo := 0, fhi := 32767, nlo := 0, nhi := 0 } false (0) (32767) s_listpartitionreassignments_response_ongoingtopicreassignment_OngoingPartitionReassignment (   -- partitions
  .nil))

/-- components/kafka-protocol-go/pkg/protocol/messages/listpartitionreassignments/response.go `Response` -/
def s_listpartitionreassignments_Response : Sch :=
  .prim { lo := 0, hi := 32767, flo := 0, fhi := 32767, nlo := 0, nhi := 0 } false (.int 4) .none (   -- throttleTimeMs
  .prim { lo := 0, hi := 32767, flo := 0, fhi := 32767, nlo := 0, nhi := 0 } false (.int 2) .none (   -- errorCode
  .prim { lo := 0, hi := 32767, flo := 0, fhi := 32767, nlo := 0, nhi := 32767 } false (.str) .none (   -- errorMessage
  .arrS { lo := 0, hi := 32767, flo := 0, fhi := 32767, nlo := 0, nhi := 0 } false (0) (32767) s_listpartitionreassignments_response_OngoingTopicReassignment (   -- topics
  .nil))))

/-- components/kafka-protocol-go/pkg/protocol/messages/listtransactions/request.go `Request` -/
def s_listtransactions_Request : Sch :=
  .arr { lo := 0, hi := 32767, flo := 0, fhi := 32767, nlo := 0, nhi := 0 } false (.str) (   -- stateFilters
  .arr { lo := 0, hi := 32767, flo := 0, fhi := 32767, nlo := 0, nhi := 0 } false (.int 8) (   -- producerIdFilters
  .nil))

/-- components/kafka-protocol-go/pkg/protocol/messages/listtransactions/response/transactionstate.go `TransactionState` -/
def s_listtransactions_response_TransactionState : Sch :=
  .prim { lo := 0, hi := 32767, flo := 0, fhi := 32767, nlo := 0, nhi := 0 } false (.str) .none (   -- transactionalId
  .prim { lo := 0, hi := 32767, flo := 0, fhi := 32767, nlo := 0, nhi := 0 } false (.int 8) .none (   -- producerId
  .prim { lo := 0, hi := 32767, flo := 0, fhi := 32767, nlo := 0, nhi := 0 } false (.str) .none (   -- transactionState
  .nil)))

/-- components/kafka-protocol-go/pkg/protocol/messages/listtransactions/response.go `Response` -/
def s_listtransactions_Response : Sch :=
  .prim { lo := 0, hi := 32767, flo := 0, fhi := 32767, nlo := 0, nhi := 0 } false (.int 4) .none (   -- throttleTimeMs
  .prim { lo := 0, hi := 32767, flo := 0, fhi := 32767, nlo := 0, nhi := 0 } false (.int 2) .none (   -- errorCode
  .arr { lo := 0, hi := 32767, flo := 0, fhi := 32767, nlo := 0, nhi := 0 } false (.str) (   -- unknownStateFilters
  .arrS { lo := 0, hi := 32767, flo := 0, fhi := 32767, nlo := 0, nhi := 0 } false (0) (32767) s_listtransactions_response_TransactionState (   -- transactionStates
  .nil))))

/-- components/kafka-protocol-go/pkg/protocol/messages/metadata/request/metadatarequesttopic.go `MetadataRequestTopic` -/
def s_metadata_request_MetadataRequestTopic : Sch :=
  .prim { lo := 10, hi := 32767, flo := 9, fhi := 32767, nlo := 1, nhi := 32767 } true (.uuid) .none (   -- topicId
  .prim { lo := 0, hi := 32767, flo := 9, fhi := 32767, nlo := 10, nhi := 32767 } false (.str) .none (   -- name
  .nil))

/-- components/kafka-protocol-go/pkg/protocol/messages/metadata/request.go `Request` -/
def s_metadata_Request : Sch :=
  .arrS { lo := 0, hi := 32767, flo := 9, fhi := 32767, nlo := 1, nhi := 32767 } false (9) (32767) s_metadata_request_MetadataRequestTopic (   -- topics
  .prim { lo := 4, hi := 32767, flo := 9, fhi := 32767, nlo := 0, nhi := 0 } false (.bool) (.bool true) (   -- allowAutoTopicCreation
  .prim { lo := 8, hi := 10, flo := 9, fhi := 32767, nlo := 0, nhi := 0 } false (.bool) .none (   -- includeClusterAuthorizedOperations
  .prim { lo := 8, hi := 32767, flo := 9, fhi := 32767, nlo := 0, nhi := 0 } false (.bool) .none (   -- includeTopicAuthorizedOperations
  .nil))))

/-- components/kafka-protocol-go/pkg/protocol/messages/metadata/response/metadataresponsebroker.go `MetadataResponseBroker` -/
def s_metadata_response_MetadataResponseBroker : Sch :=
  .prim { lo := 0, hi := 32767, flo := 9, fhi := 32767, nlo := 0, nhi := 0 } false (.int 4) .none (   -- nodeId
  .prim { lo := 0, hi := 32767, flo := 9, fhi := 32767, nlo := 0, nhi := 0 } false (.str) .none (   -- host
  .prim { lo := 0, hi := 32767, flo := 9, fhi := 32767, nlo := 0, nhi := 0 } false (.int 4) .none (   -- port
  .prim { lo := 1, hi := 32767, flo := 9, fhi := 32767, nlo := 1, nhi := 32767 } true (.str) (.str [110, 117, 108, 108]) (   -- rack
  .nil))))

/-- components/kafka-protocol-go/pkg/protocol/messages/metadata/response/metadataresponsetopic/metadataresponsepartition.go `MetadataResponsePartition` -/
def s_metadata_response_metadataresponsetopic_MetadataResponsePartition : Sch :=
  .prim { lo := 0, hi := 32767, flo := 9, fhi := 32767, nlo := 0, nhi := 0 } false (.int 2) .none (   -- errorCode
  .prim { lo := 0, hi := 32767, flo := 9, fhi := 32767, nlo := 0, nhi := 0 } false (.int 4) .none (   -- partitionIndex
  .prim { lo := 0, hi := 32767, flo := 9, fhi := 32767, nlo := 0, nhi := 0 } false (.int 4) .none (   -- leaderId
  .prim { lo := 7, hi := 32767, flo := 9, fhi := 32767, nlo := 0, nhi := 0 } true (.int 4) (.int (-1)) (   -- leaderEpoch
  .arr { lo := 0, hi := 32767, flo := 9, fhi := 32767, nlo := 0, nhi := 0 } false (.int 4) (   -- replicaNodes
  .arr { lo := 0, hi := 32767, flo := 9, fhi := 32767, nlo := 0, nhi := 0 } false (.int 4) (   -- isrNodes
  .arr { lo := 5, hi := 32767, flo := 9, fhi := 32767, nlo := 0, nhi := 0 } true (.int 4) (   -- offlineReplicas
  .nil)))))))

/-- components/kafka-protocol-go/pkg/protocol/messages/metadata/response/metadataresponsetopic.go `MetadataResponseTopic` -/
def s_metadata_response_MetadataResponseTopic : Sch :=
  .prim { lo := 0, hi := 32767, flo := 9, fhi := 32767, nlo := 0, nhi := 0 } false (.int 2) .none (   -- errorCode
  .prim { lo := 0, hi := 32767, flo := 9, fhi := 32767, nlo := 12, nhi := 32767 } false (.str) .none (   -- name
  .prim { lo := 10, hi := 32767, flo := 9, fhi := 32767, nlo := 0, nhi := 0 } true (.uuid) .none (   -- topicId
  .prim { lo := 1, hi := 32767, flo := 9, fhi := 32767, nlo := 0, nhi := 0 } true (.bool) .none (   -- isInternal
  .arrS { lo := 0, hi := 32767, flo := 9, fhi := 32767, nlo := 0, nhi := 0 } false (9) (32767) s_metadata_response_metadataresponsetopic_MetadataResponsePartition (   -- partitions
  .prim { lo := 8, hi := 32767, flo := 9, fhi := 32767, nlo := 0, nhi := 0 } false (.int 4) (.int (-2147483648)) (   -- topicAuthorizedOperations
  .nil))))))

/-- components/kafka-protocol-go/pkg/protocol/messages/metadata/response.go `Response` -/
def s_metadata_Response : Sch :=
  .prim { lo := 3, hi := 32767, flo := 9, fhi := 32767, nlo := 0, nhi := 0 } true (.int 4) .none (   -- throttleTimeMs
  .arrS { lo := 0, hi := 32767, flo := 9, fhi := 32767, nlo := 0, nhi := 0 } false (9) (32767) s_metadata_response_MetadataResponseBroker (   -- brokers
  .prim { lo := 2, hi := 32767, flo := 9, fhi := 32767, nlo := 2, nhi := 32767 } true (.str) (.str [110, 117, 108, 108]) (   -- clusterId
  .prim { lo := 1, hi := 32767, flo := 9, fhi := 32767, nlo := 0, nhi := 0 } true (.int 4) (.int (-1)) (   -- controllerId
  .arrS { lo := 0, hi := 32767, flo := 9, fhi := 32767, nlo := 0, nhi := 0 } false (9) (32767) s_metadata_response_MetadataResponseTopic (   -- topics
  .prim { lo := 8, hi := 10, flo := 9, fhi := 32767, nlo := 0, nhi := 0 } false (.int 4) (.int (-2147483648)) (   -- clusterAuthorizedOperations
  .nil))))))

/-- components/kafka-protocol-go/pkg/protocol/messages/offsetcommit/request/offsetcommitrequesttopic/offsetcommitrequestpartition.go `OffsetCommitRequestPartition` -/
def s_offsetcommit_request_offsetcommitrequesttopic_OffsetCommitRequestPartition : Sch :=
  .prim { lo := 0, hi := 32767, flo := 8, fhi := 32767, nlo := 0, nhi := 0 } false (.int 4) .none (   -- partitionIndex
  .prim { lo := 0, hi := 32767, flo := 8, fhi := 32767, nlo := 0, nhi := 0 } false (.int 8) .none (   -- committedOffset
  .prim { lo := 6, hi := 32767, flo := 8, fhi := 32767, nlo := 0, nhi := 0 } true (.int 4) (.int (-1)) (   -- committedLeaderEpoch
  .prim { lo := 1, hi := 1, flo := 8, fhi := 32767, nlo := 0, nhi := 0 } false (.int 8) (.int (-1)) (   -- commitTimestamp
  .prim { lo := 0, hi := 32767, flo := 8, fhi := 32767, nlo := 0, nhi := 32767 } false (.str) .none (   -- committedMetadata
  .nil)))))

/-- components/kafka-protocol-go/pkg/protocol/messages/offsetcommit/request/offsetcommitrequesttopic.go `OffsetCommitRequestTopic` -/
def s_offsetcommit_request_OffsetCommitRequestTopic : Sch :=
  .prim { lo := 0, hi := 32767, flo := 8, fhi := 32767, nlo := 0, nhi := 0 } false (.str) .none (   -- name
  .arrS { lo := 0, hi := 32767, flo := 8, fhi := 32767, nlo := 0, nhi := 0 } false (8) (32767) s_offsetcommit_request_offsetcommitrequesttopic_OffsetCommitRequestPartition (   -- partitions
  .nil))

/-- components/kafka-protocol-go/pkg/protocol/messages/offsetcommit/request.go `Request` -/
def s_offsetcommit_Request : Sch :=
  .prim { lo := 0, hi := 32767, flo := 8, fhi := 32767, nlo := 0, nhi := 0 } false (.str) .none (   -- groupId
  .prim { lo := 1, hi := 32767, flo := 8, fhi := 32767, nlo := 0, nhi := 0 } true (.int 4) (.int (-1)) (   -- generationId
  .prim { lo := 1, hi := 32767, flo := 8, fhi := 32767, nlo := 0, nhi := 0 } true (.str) .none (   -- memberId
  .prim { lo := 7, hi := 32767, flo := 8, fhi := 32767, nlo := 7, nhi := 32767 } false (.str) (.str [110, 117, 108, 108]) (   -- groupInstanceId
  .prim { lo := 2, hi := 4, flo := 8, fhi := 32767, nlo := 0, nhi := 0 } true (.int 8) (.int (-1)) (   -- retentionTimeMs
  .arrS { lo := 0, hi := 32767, flo := 8, fhi := 32767, nlo := 0, nhi := 0 } false (8) (32767) s_offsetcommit_request_OffsetCommitRequestTopic (   -- topics
  .nil))))))

/-- components/kafka-protocol-go/pkg/protocol/messages/offsetcommit/response/offsetcommitresponsetopic/offsetcommitresponsepartition.go `OffsetCommitResponsePartition` -/
def s_offsetcommit_response_offsetcommitresponsetopic_OffsetCommitResponsePartition : Sch :=
  .prim { lo := 0, hi := 32767, flo := 8, fhi := 32767, nlo := 0, nhi := 0 } false (.int 4) .none (   -- partitionIndex
  .prim { lo := 0, hi := 32767, flo := 8, fhi := 32767, nlo := 0, nhi := 0 } false (.int 2) .none (   -- errorCode
  .nil))

/-- components/kafka-protocol-go/pkg/protocol/messages/offsetcommit/response/offsetcommitresponsetopic.go `OffsetCommitResponseTopic` -/
def s_offsetcommit_response_OffsetCommitResponseTopic : Sch :=
  .prim { lo := 0, hi := 32767, flo := 8, fhi := 32767, nlo := 0, nhi := 0 } false (.str) .none (   -- name
  .arrS { lo := 0, hi := 32767, flo := 8, fhi := 32767, nlo := 0, nhi := 0 } false (8) (32767) s_offsetcommit_response_offsetcommitresponsetopic_OffsetCommitResponsePartition (   -- partitions
  .nil))

/-- components/kafka-protocol-go/pkg/protocol/messages/offsetcommit/response.go `Response` -/
def s_offsetcommit_Response : Sch :=
  .prim { lo := 3, hi := 32767, flo := 8, fhi := 32767, nlo := 0, nhi := 0 } true (.int 4) .none (   -- throttleTimeMs
  .arrS { lo := 0, hi := 32767, flo := 8, fhi := 32767, nlo := 0, nhi := 0 } false (8) (32767) s_offsetcommit_response_OffsetCommitResponseTopic (   -- topics
  .nil))

/-- components/kafka-protocol-go/pkg/protocol/messages/offsetdelete/request/offsetdeleterequesttopic/offsetdeleterequestpartition.go `OffsetDeleteRequestPartition` -/
def s_offsetdelete_request_offsetdeleterequesttopic_OffsetDeleteRequestPartition : Sch :=
  .prim { lo := 0, hi := 32767, flo := 32767, fhi := 32767, nlo := 0, nhi := 0 } false (.int 4) .none (   -- partitionIndex
  .nil)

/-- components/kafka-protocol-go/pkg/protocol/messages/offsetdelete/request/offsetdeleterequesttopic.go `OffsetDeleteRequestTopic` -/
def s_offsetdelete_request_OffsetDeleteRequestTopic : Sch :=
  .prim { lo := 0, hi := 32767, flo := 32767, fhi := 32767, nlo := 0, nhi := 0 } false (.str) .none (   -- name
  .arrS { lo := 0, hi := 32767, flo := 32767, fhi := 32767, nlo := 0, nhi := 0 } false (32767) (32767) s_offsetdelete_request_offsetdeleterequesttopic_OffsetDeleteRequestPartition (   -- partitions
  .nil))

/-- components/kafka-protocol-go/pkg/protocol/messages/offsetdelete/request.go `Request` -/
def s_offsetdelete_Request : Sch :=
  .prim { lo := 0, hi := 32767, flo := 32767, fhi := 32767, nlo := 0, nhi := 0 } false (.str) .none (   -- groupId
  .arrS { lo := 0, hi := 32767, flo := 32767, fhi := 32767, nlo := 0, nhi := 0 } false (32767) (32767) s_offsetdelete_request_OffsetDeleteRequestTopic (   -- topics
  .nil))

/-- components/kafka-protocol-go/pkg/protocol/messages/offsetdelete/response/offsetdeleteresponsetopic/offsetdeleteresponsepartition.go `OffsetDeleteResponsePartition` -/
def s_offsetdelete_response_offsetdeleteresponsetopic_OffsetDeleteResponsePartition : Sch :=
  .prim { lo := 0, hi := 32767, flo := 32767, fhi := 32767, nlo := 0, nhi := 0 } false (.int 4) .none (   -- partitionIndex
  .prim { lo := 0, hi := 32767, flo := 32767, fhi := 32767, nlo := 0, nhi := 0 } false (.int 2) .none (   -- errorCode
  .nil))

/-- components/kafka-protocol-go/pkg/protocol/messages/offsetdelete/response/offsetdeleteresponsetopic.go `OffsetDeleteResponseTopic` -/
def s_offsetdelete_response_OffsetDeleteResponseTopic : Sch :=
  .prim { lo := 0, hi := 32767, flo := 32767, fhi := 32767, nlo := 0, nhi := 0 } false (.str) .none (   -- name
  .arrS { lo := 0, hi := 32767, flo := 32767, fhi := 32767, nlo := 0, nhi := 0 } false (32767) (32767) s_offsetdelete_response_offsetdeleteresponsetopic_OffsetDeleteResponsePartition (   -- partitions
  .nil))

/-- components/kafka-protocol-go/pkg/protocol/messages/offsetdelete/response.go `Response` -/
def s_offsetdelete_Response : Sch :=
  .prim { lo := 0, hi := 32767, flo := 32767, fhi := 32767, nlo := 0, nhi := 0 } false (.int 2) .none (   -- errorCode
  .prim { lo := 0, hi := 32767, flo := 32767, fhi := 32767, nlo := 0, nhi := 0 } false (.int 4) .none (   -- throttleTimeMs
  .arrS { lo := 0, hi := 32767, flo := 32767, fhi := 32767, nlo := 0, nhi := 0 } false (32767) (32767) s_offsetdelete_response_OffsetDeleteResponseTopic (   -- topics
  .nil)))

/-- components/kafka-protocol-go/pkg/protocol/messages/offsetfetch/request/offsetfetchrequesttopic.go `OffsetFetchRequestTopic` -/
def s_offsetfetch_request_OffsetFetchRequestTopic : Sch :=
  .prim { lo := 0, hi := 7, flo := 6, fhi := 32767, nlo := 2, nhi := 7 } false (.str) .none (   -- name
  .arr { lo := 0, hi := 7, flo := 6, fhi := 32767, nlo := 2, nhi := 7 } false (.int 4) (   -- partitionIndexes
  .nil))

/-- components/kafka-protocol-go/pkg/protocol/messages/offsetfetch/request/offsetfetchrequestgroup/offsetfetchrequesttopics.go `OffsetFetchRequestTopics` -/
def s_offsetfetch_request_offsetfetchrequestgroup_OffsetFetchRequestTopics : Sch :=
  .prim { lo := 8, hi := 32767, flo := 6, fhi := 32767, nlo := 8, nhi := 32767 } false (.str) .none (   -- name
  .arr { lo := 8, hi := 32767, flo := 6, fhi := 32767, nlo := 8, nhi := 32767 } false (.int 4) (   -- partitionIndexes
  .nil))

/-- components/kafka-protocol-go/pkg/protocol/messages/offsetfetch/request/offsetfetchrequestgroup.go `OffsetFetchRequestGroup` -/
def s_offsetfetch_request_OffsetFetchRequestGroup : Sch :=
  .prim { lo := 8, hi := 32767, flo := 6, fhi := 32767, nlo := 0, nhi := 0 } false (.str) .none (   -- groupId
  .arrS { lo := 8, hi := 32767, flo := 6, fhi := 32767, nlo := 8, nhi := 32767 } false (6) (32767) s_offsetfetch_request_offsetfetchrequestgroup_OffsetFetchRequestTopics (   -- topics
  .nil))

/-- components/kafka-protocol-go/pkg/protocol/messages/offsetfetch/request.go `Request` -/
def s_offsetfetch_Request : Sch :=
  .prim { lo := 0, hi := 7, flo := 6, fhi := 32767, nlo := 0, nhi := 0 } false (.str) .none (   -- groupId
  .arrS { lo := 0, hi := 7, flo := 6, fhi := 32767, nlo := 2, nhi := 7 } false (6) (32767) s_offsetfetch_request_OffsetFetchRequestTopic (   -- topics
  .arrS { lo := 8, hi := 32767, flo := 6, fhi := 32767, nlo := 0, nhi := 0 } false (6) (32767) s_offsetfetch_request_OffsetFetchRequestGroup (   -- groups
  .prim { lo := 7, hi := 32767, flo := 6, fhi := 32767, nlo := 0, nhi := 0 } false (.bool) .none (   -- requireStable
  .nil))))

/-- components/kafka-protocol-go/pkg/protocol/messages/offsetfetch/response/offsetfetchresponsetopic/offsetfetchresponsepartition.go `OffsetFetchResponsePartition` -/
def s_offsetfetch_response_offsetfetchresponsetopic_OffsetFetchResponsePartition : Sch :=
  .prim { lo := 0, hi := 7, flo := 6, fhi := 32767, nlo := 0, nhi := 0 } false (.int 4) .none (   -- partitionIndex
  .prim { lo := 0, hi := 7, flo := 6, fhi := 32767, nlo := 0, nhi := 0 } false (.int 8) .none (   -- committedOffset
  .prim { lo := 5, hi := 7, flo := 6, fhi := 32767, nlo := 0, nhi := 0 } true (.int 4) (.int (-1)) (   -- committedLeaderEpoch
  .prim { lo := 0, hi := 7, flo := 6, fhi := 32767, nlo := 0, nhi := 7 } false (.str) .none (   -- metadata
  .prim { lo := 0, hi := 7, flo := 6, fhi := 32767, nlo := 0, nhi := 0 } false (.int 2) .none (   -- errorCode
  .nil)))))

/-- components/kafka-protocol-go/pkg/protocol/messages/offsetfetch/response/offsetfetchresponsetopic.go `OffsetFetchResponseTopic` -/
def s_offsetfetch_response_OffsetFetchResponseTopic : Sch :=
  .prim { lo := 0, hi := 7, flo := 6, fhi := 32767, nlo := 0, nhi := 0 } false (.str) .none (   -- name
  .arrS { lo := 0, hi := 7, flo := 6, fhi := 32767, nlo := 0, nhi := 0 } false (6) (32767) s_offsetfetch_response_offsetfetchresponsetopic_OffsetFetchResponsePartition (   -- partitions
  .nil))

/-- components/kafka-protocol-go/pkg/protocol/messages/offsetfetch/response/offsetfetchresponsegroup/offsetfetchresponsetopics/offsetfetchresponsepartitions.go `OffsetFetchResponsePartitions` -/
def s_offsetfetch_response_offsetfetchresponsegroup_offsetfetchresponsetopics_OffsetFetchResponsePartitions : Sch :=
  .prim { lo := 8, hi := 32767, flo := 6, fhi := 32767, nlo := 0, nhi := 0 } false (.int 4) .none (   -- partitionIndex
  .prim { lo := 8, hi := 32767, flo := 6, fhi := 32767, nlo := 0, nhi := 0 } false (.int 8) .none (   -- committedOffset
  .prim { lo := 8, hi := 32767, flo := 6, fhi := 32767, nlo := 0, nhi := 0 } true (.int 4) (.int (-1)) (   -- committedLeaderEpoch
  .prim { lo := 8, hi := 32767, flo := 6, fhi := 32767, nlo := 8, nhi := 32767 } false (.str) .none (   -- metadata
  .prim { lo := 8, hi := 32767, flo := 6, fhi := 32767, nlo := 0, nhi := 0 } false (.int 2) .none (   -- errorCode
  .nil)))))

/-- components/kafka-protocol-go/pkg/protocol/messages/offsetfetch/response/offsetfetchresponsegroup/offsetfetchresponsetopics.go `OffsetFetchResponseTopics` -/
def s_offsetfetch_response_offsetfetchresponsegroup_OffsetFetchResponseTopics : Sch :=
  .prim { lo := 8, hi := 32767, flo := 6, fhi := 32767, nlo := 0, nhi := 0 } false (.str) .none (   -- name
  .arrS { lo := 8, hi := 32767, flo := 6, fhi := 32767, nlo := 0, nhi := 0 } false (6) (32767) s_offsetfetch_response_offsetfetchresponsegroup_offsetfetchresponsetopics_OffsetFetchResponsePartitions (   -- partitions
  .nil))

/-- components/kafka-protocol-go/pkg/protocol/messages/offsetfetch/response/offsetfetchresponsegroup.go `OffsetFetchResponseGroup` -/
def s_offsetfetch_response_OffsetFetchResponseGroup : Sch :=
  .prim { lo := 8, hi := 32767, flo := 6, fhi := 32767, nlo := 0, nhi := 0 } false (.str) .none (   -- groupId
  .arrS { lo := 8, hi := 32767, flo := 6, fhi := 32767, nlo := 0, nhi := 0 } false (6) (32767) s_offsetfetch_response_offsetfetchresponsegroup_OffsetFetchResponseTopics (   -- topics
  .prim { lo := 8, hi := 32767, flo := 6, fhi := 32767, nlo := 0, nhi := 0 } false (.int 2) .none (   -- errorCode
  .nil)))

/-- components/kafka-protocol-go/pkg/protocol/messages/offsetfetch/response.go `Response` -/
def s_offsetfetch_Response : Sch :=
  .prim { lo := 3, hi := 32767, flo := 6, fhi := 32767, nlo := 0, nhi := 0 } true (.int 4) .none (   -- throttleTimeMs
  .arrS { lo := 0, hi := 7, flo := 6, fhi := 32767, nlo := 0, nhi := 0 } false (6) (32767) s_offsetfetch_response_OffsetFetchResponseTopic (   -- topics
  .prim { lo := 2, hi := 7, flo := 6, fhi := 32767, nlo := 0, nhi := 0 } true (.int 2) .none (   -- errorCode
  .arrS { lo := 8, hi := 32767, flo := 6, fhi := 32767, nlo := 0, nhi := 0 } false (6) (32767) s_offsetfetch_response_OffsetFetchResponseGroup (   -- groups
  .nil))))

/-- components/kafka-protocol-go/pkg/protocol/messages/offsetforleaderepoch/request/offsetforleadertopic/offsetforleaderpartition.go `OffsetForLeaderPartition` -/
def s_offsetforleaderepoch_request_offsetforleadertopic_OffsetForLeaderPartition : Sch :=
  .prim { lo := 0, hi := 32767, flo := 4, fhi := 32767, nlo := 0, nhi := 0 } false (.int 4) .none (   -- partition
  .prim { lo := 2, hi := 32767, flo := 4, fhi := 32767, nlo := 0, nhi := 0 } true (.int 4) (.int (-1)) (   -- currentLeaderEpoch
  .prim { lo := 0, hi := 32767, flo := 4, fhi := 32767, nlo := 0, nhi := 0 } false (.int 4) .none (   -- leaderEpoch
  .nil)))

/-- components/kafka-protocol-go/pkg/protocol/messages/offsetforleaderepoch/request/offsetforleadertopic.go `OffsetForLeaderTopic` -/
def s_offsetforleaderepoch_request_OffsetForLeaderTopic : Sch :=
  .prim { lo := 0, hi := 32767, flo := 4, fhi := 32767, nlo := 0, nhi := 0 } false (.str) .none (   -- topic
  .arrS { lo := 0, hi := 32767, flo := 4, fhi := 32767, nlo := 0, nhi := 0 } false (4) (32767) s_offsetforleaderepoch_request_offsetforleadertopic_OffsetForLeaderPartition (   -- partitions
  .nil))

/-- components/kafka-protocol-go/pkg/protocol/messages/offsetforleaderepoch/request.go `Request` -/
def s_offsetforleaderepoch_Request : Sch :=
  .prim { lo := 3, hi := 32767, flo := 4, fhi := 32767, nlo := 0, nhi := 0 } true (.int 4) (.int (-2)) (   -- replicaId
  .arrS { lo := 0, hi := 32767, flo := 4, fhi := 32767, nlo := 0, nhi := 0 } false (4) (32767) s_offsetforleaderepoch_request_OffsetForLeaderTopic (   -- topics
  .nil))

/-- components/kafka-protocol-go/pkg/protocol/messages/offsetforleaderepoch/response/offsetforleadertopicresult/epochendoffset.go `EpochEndOffset` -/
def s_offsetforleaderepoch_response_offsetforleadertopicresult_EpochEndOffset : Sch :=
  .prim { lo := 0, hi := 32767, flo := 4, fhi := 32767, nlo := 0, nhi := 0 } false (.int 2) .none (   -- errorCode
  .prim { lo := 0, hi := 32767, flo := 4, fhi := 32767, nlo := 0, nhi := 0 } false (.int 4) .none (   -- partition
  .prim { lo := 1, hi := 32767, flo := 4, fhi := 32767, nlo := 0, nhi := 0 } true (.int 4) (.int (-1)) (   -- leaderEpoch
  .prim { lo := 0, hi := 32767, flo := 4, fhi := 32767, nlo := 0, nhi := 0 } false (.int 8) (.int (-1)) (   -- endOffset
  .nil))))

/-- components/kafka-protocol-go/pkg/protocol/messages/offsetforleaderepoch/response/offsetforleadertopicresult.go `OffsetForLeaderTopicResult` -/
def s_offsetforleaderepoch_response_OffsetForLeaderTopicResult : Sch :=
  .prim { lo := 0, hi := 32767, flo := 4, fhi := 32767, nlo := 0, nhi := 0 } false (.str) .none (   -- topic
  .arrS { lo := 0, hi := 32767, flo := 4, fhi := 32767, nlo := 0, nhi := 0 } false (4) (32767) s_offsetforleaderepoch_response_offsetforleadertopicresult_EpochEndOffset (   -- partitions
  .nil))

/-- components/kafka-protocol-go/pkg/protocol/messages/offsetforleaderepoch/response.go `Response` -/
def s_offsetforleaderepoch_Response : Sch :=
  .prim { lo := 2, hi := 32767, flo := 4, fhi := 32767, nlo := 0, nhi := 0 } true (.int 4) .none (   -- throttleTimeMs
  .arrS { lo := 0, hi := 32767, flo := 4, fhi := 32767, nlo := 0, nhi := 0 } false (4) (32767) s_offsetforleaderepoch_response_OffsetForLeaderTopicResult (   -- topics
  .nil))

/-- components/kafka-protocol-go/pkg/protocol/messages/produce/request/topicproducedata/partitionproducedata.go `PartitionProduceData` -/
def s_produce_request_topicproducedata_PartitionProduceData : Sch :=
  .prim { lo := 0, hi := 32767, flo := 9, fhi := 32767, nlo := 0, nhi := 0 } false (.int 4) .none (   -- index
  .prim { lo := 0, hi := 32767, flo := 9, fhi := 32767, nlo := 0, nhi := 32767 } false (.records) .none (   -- records
  .nil))

/-- components/kafka-protocol-go/pkg/protocol/messages/produce/request/topicproducedata.go `TopicProduceData` -/
def s_produce_request_TopicProduceData : Sch :=
  .prim { lo := 0, hi := 32767, flo := 9, fhi := 32767, nlo := 0, nhi := 0 } false (.str) .none (   -- name
  .arrS { lo := 0, hi := 32767, flo := 9, fhi := 32767, nlo := 0, nhi := 0 } false (9) (32767) s_produce_request_topicproducedata_PartitionProduceData (   -- partitionData
  .nil))

/-- components/kafka-protocol-go/pkg/protocol/messages/produce/request.go `Request` -/
def s_produce_Request : Sch :=
  .prim { lo := 3, hi := 32767, flo := 9, fhi := 32767, nlo := 3, nhi := 32767 } false (.str) (.str [110, 117, 108, 108]) (   -- transactionalId
  .prim { lo := 0, hi := 32767, flo := 9, fhi := 32767, nlo := 0, nhi := 0 } false (.int 2) .none (   -- acks
  .prim { lo := 0, hi := 32767, flo := 9, fhi := 32767, nlo := 0, nhi := 0 } false (.int 4) .none (   -- timeoutMs
  .arrS { lo := 0, hi := 32767, flo := 9, fhi := 32767, nlo := 0, nhi := 0 } false (9) (32767) s_produce_request_TopicProduceData (   -- topicData
  .nil))))

/-- components/kafka-protocol-go/pkg/protocol/messages/produce/response/topicproduceresponse/partitionproduceresponse/batchindexanderrormessage.go `BatchIndexAndErrorMessage` -/
def s_produce_response_topicproduceresponse_partitionproduceresponse_BatchIndexAndErrorMessage : Sch :=
  .prim { lo := 8, hi := 32767, flo := 9, fhi := 32767, nlo := 0, nhi := 0 } false (.int 4) .none (   -- batchIndex
  .prim { lo := 8, hi := 32767, flo := 9, fhi := 32767, nlo := 8, nhi := 32767 } false (.str) (.str [110, 117, 108, 108]) (   -- batchIndexErrorMessage
  .nil))

/-- components/kafka-protocol-go/pkg/protocol/messages/produce/response/topicproduceresponse/partitionproduceresponse.go `PartitionProduceResponse` -/
def s_produce_response_topicproduceresponse_PartitionProduceResponse : Sch :=
  .prim { lo := 0, hi := 32767, flo := 9, fhi := 32767, nlo := 0, nhi := 0 } false (.int 4) .none (   -- index
  .prim { lo := 0, hi := 32767, flo := 9, fhi := 32767, nlo := 0, nhi := 0 } false (.int 2) .none (   -- errorCode
  .prim { lo := 0, hi := 32767, flo := 9, fhi := 32767, nlo := 0, nhi := 0 } false (.int 8) .none (   -- baseOffset
  .prim { lo := 2, hi := 32767, flo := 9, fhi := 32767, nlo := 0, nhi := 0 } true (.int 8) (.int (-1)) (   -- logAppendTimeMs
  .prim { lo := 5, hi := 32767, flo := 9, fhi := 32767, nlo := 0, nhi := 0 } true (.int 8) (.int (-1)) (   -- logStartOffset
  .arrS { lo := 8, hi := 32767, flo := 9, fhi := 32767, nlo := 0, nhi := 0 } true (9) (32767) s_produce_response_topicproduceresponse_partitionproduceresponse_BatchIndexAndErrorMessage (   -- recordErrors
  .prim { lo := 8, hi := 32767, flo := 9, fhi := 32767, nlo := 8, nhi := 32767 } true (.str) (.str [110, 117, 108, 108]) (   -- errorMessage
  .nil)))))))

/-- components/kafka-protocol-go/pkg/protocol/messages/produce/response/topicproduceresponse.go `TopicProduceResponse` -/
def s_produce_response_TopicProduceResponse : Sch :=
  .prim { lo := 0, hi := 32767, flo := 9, fhi := 32767, nlo := 0, nhi := 0 } false (.str) .none (   -- name
  .arrS { lo := 0, hi := 32767, flo := 9, fhi := 32767, nlo := 0, nhi := 0 } false (9) (32767) s_produce_response_topicproduceresponse_PartitionProduceResponse (   -- partitionResponses
  .nil))

/-- components/kafka-protocol-go/pkg/protocol/messages/produce/response.go `Response` -/
def s_produce_Response : Sch :=
  .arrS { lo := 0, hi := 32767, flo := 9, fhi := 32767, nlo := 0, nhi := 0 } false (9) (32767) s_produce_response_TopicProduceResponse (   -- responses
  .prim { lo := 1, hi := 32767, flo := 9, fhi := 32767, nlo := 0, nhi := 0 } true (.int 4) .none (   -- throttleTimeMs
  .nil))

/-- components/kafka-protocol-go/pkg/protocol/messages/renewdelegationtoken/request.go `Request` -/
def s_renewdelegationtoken_Request : Sch :=
  .prim { lo := 0, hi := 32767, flo := 2, fhi := 32767, nlo := 0, nhi := 0 } false (.bytes) .none (   -- hmac
  .prim { lo := 0, hi := 32767, flo := 2, fhi := 32767, nlo := 0, nhi := 0 } false (.int 8) .none (   -- renewPeriodMs
  .nil))

/-- components/kafka-protocol-go/pkg/protocol/messages/renewdelegationtoken/response.go `Response` -/
def s_renewdelegationtoken_Response : Sch :=
  .prim { lo := 0, hi := 32767, flo := 2, fhi := 32767, nlo := 0, nhi := 0 } false (.int 2) .none (   -- errorCode
  .prim { lo := 0, hi := 32767, flo := 2, fhi := 32767, nlo := 0, nhi := 0 } false (.int 8) .none (   -- expiryTimestampMs
  .prim { lo := 0, hi := 32767, flo := 2, fhi := 32767, nlo := 0, nhi := 0 } false (.int 4) .none (   -- throttleTimeMs
  .nil)))

/-- components/kafka-protocol-go/pkg/protocol/messages/request/header.go `Header` -/
def s_request_Header : Sch :=
  .prim { lo := 0, hi := 32767, flo := 2, fhi := 32767, nlo := 0, nhi := 0 } false (.int 2) .none (   -- requestApiKey
  .prim { lo := 0, hi := 32767, flo := 2, fhi := 32767, nlo := 0, nhi := 0 } false (.int 2) .none (   -- requestApiVersion
  .prim { lo := 0, hi := 32767, flo := 2, fhi := 32767, nlo := 0, nhi := 0 } false (.int 4) .none (   -- correlationId
  .prim { lo := 1, hi := 32767, flo := 32767, fhi := 32767, nlo := 1, nhi := 32767 } true (.str) .none (   -- clientId
  .nil))))

/-- components/kafka-protocol-go/pkg/protocol/messages/response/header.go `Header` -/
def s_response_Header : Sch :=
  .prim { lo := 0, hi := 32767, flo := 1, fhi := 32767, nlo := 0, nhi := 0 } false (.int 4) .none (   -- correlationId
  .nil)

/-- components/kafka-protocol-go/pkg/protocol/messages/saslauthenticate/request.go `Request` -/
def s_saslauthenticate_Request : Sch :=
  .prim { lo := 0, hi := 32767, flo := 2, fhi := 32767, nlo := 0, nhi := 0 } false (.bytes) .none (   -- authBytes
  .nil)

/-- components/kafka-protocol-go/pkg/protocol/messages/saslauthenticate/response.go `Response` -/
def s_saslauthenticate_Response : Sch :=
  .prim { lo := 0, hi := 32767, flo := 2, fhi := 32767, nlo := 0, nhi := 0 } false (.int 2) .none (   -- errorCode
  .prim { lo := 0, hi := 32767, flo := 2, fhi := 32767, nlo := 0, nhi := 32767 } false (.str) .none (   -- errorMessage
  .prim { lo := 0, hi := 32767, flo := 2, fhi := 32767, nlo := 0, nhi := 0 } false (.bytes) .none (   -- authBytes
  .prim { lo := 1, hi := 32767, flo := 2, fhi := 32767, nlo := 0, nhi := 0 } true (.int 8) .none (   -- sessionLifetimeMs
  .nil))))

/-- components/kafka-protocol-go/pkg/protocol/messages/saslhandshake/request.go `Request` -/
def s_saslhandshake_Request : Sch :=
  .prim { lo := 0, hi := 32767, flo := 32767, fhi := 32767, nlo := 0, nhi := 0 } false (.str) .none (   -- mechanism
  .nil)

/-- components/kafka-protocol-go/pkg/protocol/messages/saslhandshake/response.go `Response` -/
def s_saslhandshake_Response : Sch :=
  .prim { lo := 0, hi := 32767, flo := 32767, fhi := 32767, nlo := 0, nhi := 0 } false (.int 2) .none (   -- errorCode
  .arr { lo := 0, hi := 32767, flo := 32767, fhi := 32767, nlo := 0, nhi := 0 } false (.str) (   -- mechanisms
  .nil))

/-- components/kafka-protocol-go/pkg/protocol/messages/stopreplica/request/stopreplicapartitionv0.go `StopReplicaPartitionV0` -/
def s_stopreplica_request_StopReplicaPartitionV0 : Sch :=
  .prim { lo := 0, hi := 0, flo := 2, fhi := 32767, nlo := 0, nhi := 0 } false (.str) .none (   -- topicName
  .prim { lo := 0, hi := 0, flo := 2, fhi := 32767, nlo := 0, nhi := 0 } false (.int 4) .none (   -- partitionIndex
  .nil))

/-- components/kafka-protocol-go/pkg/protocol/messages/stopreplica/request/stopreplicatopicv1.go `StopReplicaTopicV1` -/
def s_stopreplica_request_StopReplicaTopicV1 : Sch :=
  .prim { lo := 1, hi := 2, flo := 2, fhi := 32767, nlo := 0, nhi := 0 } false (.str) .none (   -- name
  .arr { lo := 1, hi := 2, flo := 2, fhi := 32767, nlo := 0, nhi := 0 } false (.int 4) (   -- partitionIndexes
  .nil))

/-- components/kafka-protocol-go/pkg/protocol/messages/stopreplica/request/stopreplicatopicstate/stopreplicapartitionstate.go `StopReplicaPartitionState` -/
def s_stopreplica_request_stopreplicatopicstate_StopReplicaPartitionState : Sch :=
  .prim { lo := 3, hi := 32767, flo := 2, fhi := 32767, nlo := 0, nhi := 0 } false (.int 4) .none (   -- partitionIndex
  .prim { lo := 3, hi := 32767, flo := 2, fhi := 32767, nlo := 0, nhi := 0 } false (.int 4) (.int (-1)) (   -- leaderEpoch
  .prim { lo := 3, hi := 32767, flo := 2, fhi := 32767, nlo := 0, nhi := 0 } false (.bool) .none (   -- deletePartition
  .nil)))

/-- components/kafka-protocol-go/pkg/protocol/messages/stopreplica/request/stopreplicatopicstate.go `StopReplicaTopicState` -/
def s_stopreplica_request_StopReplicaTopicState : Sch :=
  .prim { lo := 3, hi := 32767, flo := 2, fhi := 32767, nlo := 0, nhi := 0 } false (.str) .none (   -- topicName
  .arrS { lo := 3, hi := 32767, flo := 2, fhi := 32767, nlo := 0, nhi := 0 } false (2) (32767) s_stopreplica_request_stopreplicatopicstate_StopReplicaPartitionState (   -- partitionStates
  .nil))

/-- components/kafka-protocol-go/pkg/protocol/messages/stopreplica/request.go `Request` -/
def s_stopreplica_Request : Sch :=
  .prim { lo := 0, hi := 32767, flo := 2, fhi := 32767, nlo := 0, nhi := 0 } false (.int 4) .none (   -- controllerId
  .prim { lo := 4, hi := 32767, flo := 2, fhi := 32767, nlo := 0, nhi := 0 } false (.bool) .none (   -- isKRaftController
  .prim { lo := 0, hi := 32767, flo := 2, fhi := 32767, nlo := 0, nhi := 0 } false (.int 4) .none (   -- controllerEpoch
  .prim { lo := 1, hi := 32767, flo := 2, fhi := 32767, nlo := 0, nhi := 0 } true (.int 8) (.int (-1)) (   -- brokerEpoch
  .prim { lo := 0, hi := 2, flo := 2, fhi := 32767, nlo := 0, nhi := 0 } false (.bool) .none (   -- deletePartitions
  .arrS { lo := 0, hi := 0, flo := 2, fhi := 32767, nlo := 0, nhi := 0 } false (2) (32767) s_stopreplica_request_StopReplicaPartitionV0 (   -- ungroupedPartitions
  .arrS { lo := 1, hi := 2, flo := 2, fhi := 32767, nlo := 0, nhi := 0 } false (2) (32767) s_stopreplica_request_StopReplicaTopicV1 (   -- topics
  .arrS { lo := 3, hi := 32767, flo := 2, fhi := 32767, nlo := 0, nhi := 0 } false (2) (32767) s_stopreplica_request_StopReplicaTopicState (   -- topicStates
  .nil))))))))

/-- components/kafka-protocol-go/pkg/protocol/messages/stopreplica/response/stopreplicapartitionerror.go `StopReplicaPartitionError` -/
def s_stopreplica_response_StopReplicaPartitionError : Sch :=
  .prim { lo := 0, hi := 32767, flo := 2, fhi := 32767, nlo := 0, nhi := 0 } false (.str) .none (   -- topicName
  .prim { lo := 0, hi := 32767, flo := 2, fhi := 32767, nlo := 0, nhi := 0 } false (.int 4) .none (   -- partitionIndex
  .prim { lo := 0, hi := 32767, flo := 2, fhi := 32767, nlo := 0, nhi := 0 } false (.int 2) .none (   -- errorCode
  .nil)))

/-- components/kafka-protocol-go/pkg/protocol/messages/stopreplica/response.go `Response` -/
def s_stopreplica_Response : Sch :=
  .prim { lo := 0, hi := 32767, flo := 2, fhi := 32767, nlo := 0, nhi := 0 } false (.int 2) .none (   -- errorCode
  .arrS { lo := 0, hi := 32767, flo := 2, fhi := 32767, nlo := 0, nhi := 0 } false (2) (32767) s_stopreplica_response_StopReplicaPartitionError (   -- partitionErrors
  .nil))

/-- components/kafka-protocol-go/pkg/protocol/messages/syncgroup/request/syncgrouprequestassignment.go `SyncGroupRequestAssignment` -/
def s_syncgroup_request_SyncGroupRequestAssignment : Sch :=
  .prim { lo := 0, hi := 32767, flo := 4, fhi := 32767, nlo := 0, nhi := 0 } false (.str) .none (   -- memberId
  .prim { lo := 0, hi := 32767, flo := 4, fhi := 32767, nlo := 0, nhi := 0 } false (.bytes) .none (   -- assignment
  .nil))

/-- components/kafka-protocol-go/pkg/protocol/messages/syncgroup/request.go `Request` -/
def s_syncgroup_Request : Sch :=
  .prim { lo := 0, hi := 32767, flo := 4, fhi := 32767, nlo := 0, nhi := 0 } false (.str) .none (   -- groupId
  .prim { lo := 0, hi := 32767, flo := 4, fhi := 32767, nlo := 0, nhi := 0 } false (.int 4) .none (   -- generationId
  .prim { lo := 0, hi := 32767, flo := 4, fhi := 32767, nlo := 0, nhi := 0 } false (.str) .none (   -- memberId
  .prim { lo := 3, hi := 32767, flo := 4, fhi := 32767, nlo := 3, nhi := 32767 } false (.str) (.str [110, 117, 108, 108]) (   -- groupInstanceId
  .prim { lo := 5, hi := 32767, flo := 4, fhi := 32767, nlo := 5, nhi := 32767 } true (.str) (.str [110, 117, 108, 108]) (   -- protocolType
  .prim { lo := 5, hi := 32767, flo := 4, fhi := 32767, nlo := 5, nhi := 32767 } true (.str) (.str [110, 117, 108, 108]) (   -- protocolName
  .arrS { lo := 0, hi := 32767, flo := 4, fhi := 32767, nlo := 0, nhi := 0 } false (4) (32767) s_syncgroup_request_SyncGroupRequestAssignment (   -- assignments
  .nil)))))))

/-- components/kafka-protocol-go/pkg/protocol/messages/syncgroup/response.go `Response` -/
def s_syncgroup_Response : Sch :=
  .prim { lo := 1, hi := 32767, flo := 4, fhi := 32767, nlo := 0, nhi := 0 } true (.int 4) .none (   -- throttleTimeMs
  .prim { lo := 0, hi := 32767, flo := 4, fhi := 32767, nlo := 0, nhi := 0 } false (.int 2) .none (   -- errorCode
  .prim { lo := 5, hi := 32767, flo := 4, fhi := 32767, nlo := 5, nhi := 32767 } true (.str) (.str [110, 117, 108, 108]) (   -- protocolType
  .prim { lo := 5, hi := 32767, flo := 4, fhi := 32767, nlo := 5, nhi := 32767 } true (.str) (.str [110, 117, 108, 108]) (   -- protocolName
  .prim { lo := 0, hi := 32767, flo := 4, fhi := 32767, nlo := 0, nhi := 0 } false (.bytes) .none (   -- assignment
  .nil)))))

/-- components/kafka-protocol-go/pkg/protocol/messages/txnoffsetcommit/request/txnoffsetcommitrequesttopic/txnoffsetcommitrequestpartition.go `TxnOffsetCommitRequestPartition` -/
def s_txnoffsetcommit_request_txnoffsetcommitrequesttopic_TxnOffsetCommitRequestPartition : Sch :=
  .prim { lo := 0, hi := 32767, flo := 3, fhi := 32767, nlo := 0, nhi := 0 } false (.int 4) .none (   -- partitionIndex
  .prim { lo := 0, hi := 32767, flo := 3, fhi := 32767, nlo := 0, nhi := 0 } false (.int 8) .none (   -- committedOffset
  .prim { lo := 2, hi := 32767, flo := 3, fhi := 32767, nlo := 0, nhi := 0 } true (.int 4) (.int (-1)) (   -- committedLeaderEpoch
  .prim { lo := 0, hi := 32767, flo := 3, fhi := 32767, nlo := 0, nhi := 32767 } false (.str) .none (   -- committedMetadata
  .nil))))

/-- components/kafka-protocol-go/pkg/protocol/messages/txnoffsetcommit/request/txnoffsetcommitrequesttopic.go `TxnOffsetCommitRequestTopic` -/
def s_txnoffsetcommit_request_TxnOffsetCommitRequestTopic : Sch :=
  .prim { lo := 0, hi := 32767, flo := 3, fhi := 32767, nlo := 0, nhi := 0 } false (.str) .none (   -- name
  .arrS { lo := 0, hi := 32767, flo := 3, fhi := 32767, nlo := 0, nhi := 0 } false (3) (32767) s_txnoffsetcommit_request_txnoffsetcommitrequesttopic_TxnOffsetCommitRequestPartition (   -- partitions
  .nil))

/-- components/kafka-protocol-go/pkg/protocol/messages/txnoffsetcommit/request.go `Request` -/
def s_txnoffsetcommit_Request : Sch :=
  .prim { lo := 0, hi := 32767, flo := 3, fhi := 32767, nlo := 0, nhi := 0 } false (.str) .none (   -- transactionalId
  .prim { lo := 0, hi := 32767, flo := 3, fhi := 32767, nlo := 0, nhi := 0 } false (.str) .none (   -- groupId
  .prim { lo := 0, hi := 32767, flo := 3, fhi := 32767, nlo := 0, nhi := 0 } false (.int 8) .none (   -- producerId
  .prim { lo := 0, hi := 32767, flo := 3, fhi := 32767, nlo := 0, nhi := 0 } false (.int 2) .none (   -- producerEpoch
  .prim { lo := 3, hi := 32767, flo := 3, fhi := 32767, nlo := 0, nhi := 0 } false (.int 4) (.int (-1)) (   -- generationId
  .prim { lo := 3, hi := 32767, flo := 3, fhi := 32767, nlo := 0, nhi := 0 } false (.str) .none (   -- memberId
  .prim { lo := 3, hi := 32767, flo := 3, fhi := 32767, nlo := 3, nhi := 32767 } false (.str) (.str [110, 117, 108, 108]) (   -- groupInstanceId
  .arrS { lo := 0, hi := 32767, flo := 3, fhi := 32767, nlo := 0, nhi := 0 } false (3) (32767) s_txnoffsetcommit_request_TxnOffsetCommitRequestTopic (   -- topics
  .nil))))))))

/-- components/kafka-protocol-go/pkg/protocol/messages/txnoffsetcommit/response/txnoffsetcommitresponsetopic/txnoffsetcommitresponsepartition.go `TxnOffsetCommitResponsePartition` -/
def s_txnoffsetcommit_response_txnoffsetcommitresponsetopic_TxnOffsetCommitResponsePartition : Sch :=
  .prim { lo := 0, hi := 32767, flo := 3, fhi := 32767, nlo := 0, nhi := 0 } false (.int 4) .none (   -- partitionIndex
  .prim { lo := 0, hi := 32767, flo := 3, fhi := 32767, nlo := 0, nhi := 0 } false (.int 2) .none (   -- errorCode
  .nil))

/-- components/kafka-protocol-go/pkg/protocol/messages/txnoffsetcommit/response/txnoffsetcommitresponsetopic.go `TxnOffsetCommitResponseTopic` -/
def s_txnoffsetcommit_response_TxnOffsetCommitResponseTopic : Sch :=
  .prim { lo := 0, hi := 32767, flo := 3, fhi := 32767, nlo := 0, nhi := 0 } false (.str) .none (   -- name
  .arrS { lo := 0, hi := 32767, flo := 3, fhi := 32767, nlo := 0, nhi := 0 } false (3) (32767) s_txnoffsetcommit_response_txnoffsetcommitresponsetopic_TxnOffsetCommitResponsePartition (   -- partitions
  .nil))

/-- components/kafka-protocol-go/pkg/protocol/messages/txnoffsetcommit/response.go `Response` -/
def s_txnoffsetcommit_Response : Sch :=
  .prim { lo := 0, hi := 32767, flo := 3, fhi := 32767, nlo := 0, nhi := 0 } false (.int 4) .none (   -- throttleTimeMs
  .arrS { lo := 0, hi := 32767, flo := 3, fhi := 32767, nlo := 0, nhi := 0 } false (3) (32767) s_txnoffsetcommit_response_TxnOffsetCommitResponseTopic (   -- topics
  .nil))

/-- components/kafka-protocol-go/pkg/protocol/messages/unregisterbroker/request.go `Request` -/
def s_unregisterbroker_Request : Sch :=
  .prim { lo := 0, hi := 32767, flo := 0, fhi := 32767, nlo := 0, nhi := 0 } false (.int 4) .none (   -- brokerId
  .nil)

/-- components/kafka-protocol-go/pkg/protocol/messages/unregisterbroker/response.go `Response` -/
def s_unregisterbroker_Response : Sch :=
  .prim { lo := 0, hi := 32767, flo := 0, fhi := 32767, nlo := 0, nhi := 0 } false (.int 4) .none (   -- throttleTimeMs
  .prim { lo := 0, hi := 32767, flo := 0, fhi := 32767, nlo := 0, nhi := 0 } false (.int 2) .none (   -- errorCode
  .prim { lo := 0, hi := 32767, flo := 0, fhi := 32767, nlo := 0, nhi := 32767 } false (.str) .none (   -- errorMessage
  .nil)))

/-- components/kafka-protocol-go/pkg/protocol/messages/updatefeatures/request/featureupdatekey.go `FeatureUpdateKey` -/
def s_updatefeatures_request_FeatureUpdateKey : Sch :=
  .prim { lo := 0, hi := 32767, flo := 0, fhi := 32767, nlo := 0, nhi := 0 } false (.str) .none (   -- feature
  .prim { lo := 0, hi := 32767, flo := 0, fhi := 32767, nlo := 0, nhi := 0 } false (.int 2) .none (   -- maxVersionLevel
  .prim { lo := 0, hi := 0, flo := 0, fhi := 32767, nlo := 0, nhi := 0 } false (.bool) .none (   -- allowDowngrade
  .prim { lo := 1, hi := 32767, flo := 0, fhi := 32767, nlo := 0, nhi := 0 } false (.int 1) (.int (1)) (   -- upgradeType
  .nil))))

/-- components/kafka-protocol-go/pkg/protocol/messages/updatefeatures/request.go `Request` -/
def s_updatefeatures_Request : Sch :=
  .prim { lo := 0, hi := 32767, flo := 0, fhi := 32767, nlo := 0, nhi := 0 } false (.int 4) (.int (60000)) (   -- timeoutMs
  .arrS { lo := 0, hi := 32767, flo := 0, fhi := 32767, nlo := 0, nhi := 0 } false (0) (32767) s_updatefeatures_request_FeatureUpdateKey (   -- featureUpdates
  .prim { lo := 1, hi := 32767, flo := 0, fhi := 32767, nlo := 0, nhi := 0 } false (.bool) .none (   -- validateOnly
  .nil)))

/-- components/kafka-protocol-go/pkg/protocol/messages/updatefeatures/response/updatablefeatureresult.go `UpdatableFeatureResult` -/
def s_updatefeatures_response_UpdatableFeatureResult : Sch :=
  .prim { lo := 0, hi := 32767, flo := 0, fhi := 32767, nlo := 0, nhi := 0 } false (.str) .none (   -- feature
  .prim { lo := 0, hi := 32767, flo := 0, fhi := 32767, nlo := 0, nhi := 0 } false (.int 2) .none (   -- errorCode
  .prim { lo := 0, hi := 32767, flo := 0, fhi := 32767, nlo := 0, nhi := 32767 } false (.str) .none (   -- errorMessage
  .nil)))

/-- components/kafka-protocol-go/pkg/protocol/messages/updatefeatures/response.go `Response` -/
def s_updatefeatures_Response : Sch :=
  .prim { lo := 0, hi := 32767, flo := 0, fhi := 32767, nlo := 0, nhi := 0 } false (.int 4) .none (   -- throttleTimeMs
  .prim { lo := 0, hi := 32767, flo := 0, fhi := 32767, nlo := 0, nhi := 0 } false (.int 2) .none (   -- errorCode
  .prim { lo := 0, hi := 32767, flo := 0, fhi := 32767, nlo := 0, nhi := 32767 } false (.str) .none (   -- errorMessage
  .arrS { lo := 0, hi := 32767, flo := 0, fhi := 32767, nlo := 0, nhi := 0 } false (0) (32767) s_updatefeatures_response_UpdatableFeatureResult (   -- results
  .nil))))

/-- components/kafka-protocol-go/pkg/protocol/messages/updatemetadata/common/updatemetadatapartitionstate.go `UpdateMetadataPartitionState` -/
def s_updatemetadata_common_UpdateMetadataPartitionState : Sch :=
  .prim { lo := 0, hi := 4, flo := 6, fhi := 32767, nlo := 0, nhi := 0 } false (.str) .none (   -- topicName
  .prim { lo := 0, hi := 32767, flo := 6, fhi := 32767, nlo := 0, nhi := 0 } false (.int 4) .none (   -- partitionIndex
  .prim { lo := 0, hi := 32767, flo := 6, fhi := 32767, nlo := 0, nhi := 0 } false (.int 4) .none (   -- controllerEpoch
  .prim { lo := 0, hi := 32767, flo := 6, fhi := 32767, nlo := 0, nhi := 0 } false (.int 4) .none (   -- leader
  .prim { lo := 0, hi := 32767, flo := 6, fhi := 32767, nlo := 0, nhi := 0 } false (.int 4) .none (   -- leaderEpoch
  .arr { lo := 0, hi := 32767, flo := 6, fhi := 32767, nlo := 0, nhi := 0 } false (.int 4) (   -- isr
  .prim { lo := 0, hi := 32767, flo := 6, fhi := 32767, nlo := 0, nhi := 0 } false (.int 4) .none (   -- zkVersion
  .arr { lo := 0, hi := 32767, flo := 6, fhi := 32767, nlo := 0, nhi := 0 } false (.int 4) (   -- replicas
  .arr { lo := 4, hi := 32767, flo := 6, fhi := 32767, nlo := 0, nhi := 0 } true (.int 4) (   -- offlineReplicas
  .nil)))))))))

/-- components/kafka-protocol-go/pkg/protocol/messages/updatemetadata/request/updatemetadatatopicstate.go `UpdateMetadataTopicState` -/
def s_updatemetadata_request_UpdateMetadataTopicState : Sch :=
  .prim { lo := 5, hi := 32767, flo := 6, fhi := 32767, nlo := 0, nhi := 0 } false (.str) .none (   -- topicName
  .prim { lo := 7, hi := 32767, flo := 6, fhi := 32767, nlo := 0, nhi := 0 } true (.uuid) .none (   -- topicId
  .arrS { lo := 5, hi := 32767, flo := 6, fhi := 32767, nlo := 0, nhi := 0 } false (6) (32767) s_updatemetadata_common_UpdateMetadataPartitionState (   -- partitionStates
  .nil)))

/-- components/kafka-protocol-go/pkg/protocol/messages/updatemetadata/request/updatemetadatabroker/updatemetadataendpoint.go `UpdateMetadataEndpoint` -/
def s_updatemetadata_request_updatemetadatabroker_UpdateMetadataEndpoint : Sch :=
  .prim { lo := 1, hi := 32767, flo := 6, fhi := 32767, nlo := 0, nhi := 0 } false (.int 4) .none (   -- port
  .prim { lo := 1, hi := 32767, flo := 6, fhi := 32767, nlo := 0, nhi := 0 } false (.str) .none (   -- host
  .prim { lo := 3, hi := 32767, flo := 6, fhi := 32767, nlo := 0, nhi := 0 } true (.str) .none (   -- listener
  .prim { lo := 1, hi := 32767, flo := 6, fhi := 32767, nlo := 0, nhi := 0 } false (.int 2) .none (   -- securityProtocol
  .nil))))

/-- components/kafka-protocol-go/pkg/protocol/messages/updatemetadata/request/updatemetadatabroker.go `UpdateMetadataBroker` -/
def s_updatemetadata_request_UpdateMetadataBroker : Sch :=
  .prim { lo := 0, hi := 32767, flo := 6, fhi := 32767, nlo := 0, nhi := 0 } false (.int 4) .none (   -- id
  .prim { lo := 0, hi := 0, flo := 6, fhi := 32767, nlo := 0, nhi := 0 } false (.str) .none (   -- v0Host
  .prim { lo := 0, hi := 0, flo := 6, fhi := 32767, nlo := 0, nhi := 0 } false (.int 4) .none (   -- v0Port
  .arrS { lo := 1, hi := 32767, flo := 6, fhi := 32767, nlo := 0, nhi := 0 } true (6) (32767) s_updatemetadata_request_updatemetadatabroker_UpdateMetadataEndpoint (   -- endpoints
  .prim { lo := 2, hi := 32767, flo := 6, fhi := 32767, nlo := 0, nhi := 32767 } true (.str) .none (   -- rack
  .nil)))))

/-- components/kafka-protocol-go/pkg/protocol/messages/updatemetadata/request.go `Request` -/
def s_updatemetadata_Request : Sch :=
  .prim { lo := 0, hi := 32767, flo := 6, fhi := 32767, nlo := 0, nhi := 0 } false (.int 4) .none (   -- controllerId
  .prim { lo := 8, hi := 32767, flo := 6, fhi := 32767, nlo := 0, nhi := 0 } false (.bool) .none (   -- isKRaftController
  .prim { lo := 0, hi := 32767, flo := 6, fhi := 32767, nlo := 0, nhi := 0 } false (.int 4) .none (   -- controllerEpoch
  .prim { lo := 5, hi := 32767, flo := 6, fhi := 32767, nlo := 0, nhi := 0 } true (.int 8) (.int (-1)) (   -- brokerEpoch
  .arrS { lo := 0, hi := 4, flo := 6, fhi := 32767, nlo := 0, nhi := 0 } false (6) (32767) s_updatemetadata_common_UpdateMetadataPartitionState (   -- ungroupedPartitionStates
  .arrS { lo := 5, hi := 32767, flo := 6, fhi := 32767, nlo := 0, nhi := 0 } false (6) (32767) s_updatemetadata_request_UpdateMetadataTopicState (   -- topicStates
  .arrS { lo := 0, hi := 32767, flo := 6, fhi := 32767, nlo := 0, nhi := 0 } false (6) (32767) s_updatemetadata_request_UpdateMetadataBroker (   -- liveBrokers
  .nil)))))))

/-- components/kafka-protocol-go/pkg/protocol/messages/updatemetadata/response.go `Response` -/
def s_updatemetadata_Response : Sch :=
  .prim { lo := 0, hi := 32767, flo := 6, fhi := 32767, nlo := 0, nhi := 0 } false (.int 2) .none (   -- errorCode
  .nil)

/-- components/kafka-protocol-go/pkg/protocol/messages/vote/request/topicdata/partitiondata.go `PartitionData` -/
def s_vote_request_topicdata_PartitionData : Sch :=
  .prim { lo := 0, hi := 32767, flo := 0, fhi := 32767, nlo := 0, nhi := 0 } false (.int 4) .none (   -- partitionIndex
  .prim { lo := 0, hi := 32767, flo := 0, fhi := 32767, nlo := 0, nhi := 0 } false (.int 4) .none (   -- candidateEpoch
  .prim { lo := 0, hi := 32767, flo := 0, fhi := 32767, nlo := 0, nhi := 0 } false (.int 4) .none (   -- candidateId
  .prim { lo := 0, hi := 32767, flo := 0, fhi := 32767, nlo := 0, nhi := 0 } false (.int 4) .none (   -- lastOffsetEpoch
  .prim { lo := 0, hi := 32767, flo := 0, fhi := 32767, nlo := 0, nhi := 0 } false (.int 8) .none (   -- lastOffset
  .nil)))))

/-- components/kafka-protocol-go/pkg/protocol/messages/vote/request/topicdata.go `TopicData` -/
def s_vote_request_TopicData : Sch :=
  .prim { lo := 0, hi := 32767, flo := 0, fhi := 32767, nlo := 0, nhi := 0 } false (.str) .none (   -- topicName
  .arrS { lo := 0, hi := 32767, flo := 0, fhi := 32767, nlo := 0, nhi := 0 } false (0) (32767) s_vote_request_topicdata_PartitionData (   -- partitions
  .nil))

/-- components/kafka-protocol-go/pkg/protocol/messages/vote/request.go `Request` -/
def s_vote_Request : Sch :=
  .prim { lo := 0, hi := 32767, flo := 0, fhi := 32767, nlo := 0, nhi := 32767 } false (.str) (.str [110, 117, 108, 108]) (   -- clusterId
  .arrS { lo := 0, hi := 32767, flo := 0, fhi := 32767, nlo := 0, nhi := 0 } false (0) (32767) s_vote_request_TopicData (   -- topics
  .nil))

/-- components/kafka-protocol-go/pkg/protocol/messages/vote/response/topicdata/partitiondata.go `PartitionData` -/
def s_vote_response_topicdata_PartitionData : Sch :=
  .prim { lo := 0, hi := 32767, flo := 0, fhi := 32767, nlo := 0, nhi := 0 } false (.int 4) .none (   -- partitionIndex
  .prim { lo := 0, hi := 32767, flo := 0, fhi := 32767, nlo := 0, nhi := 0 } false (.int 2) .none (   -- errorCode
  .prim { lo := 0, hi := 32767, flo := 0, fhi := 32767, nlo := 0, nhi := 0 } false (.int 4) .none (   -- leaderId
  .prim { lo := 0, hi := 32767, flo := 0, fhi := 32767, nlo := 0, nhi := 0 } false (.int 4) .none (   -- leaderEpoch
  .prim { lo := 0, hi := 32767, flo := 0, fhi := 32767, nlo := 0, nhi := 0 } false (.bool) .none (   -- voteGranted
  .nil)))))

/-- components/kafka-protocol-go/pkg/protocol/messages/vote/response/topicdata.go `TopicData` -/
def s_vote_response_TopicData : Sch :=
  .prim { lo := 0, hi := 32767, flo := 0, fhi := 32767, nlo := 0, nhi := 0 } false (.str) .none (   -- topicName
  .arrS { lo := 0, hi := 32767, flo := 0, fhi := 32767, nlo := 0, nhi := 0 } false (0) (32767) s_vote_response_topicdata_PartitionData (   -- partitions
  .nil))

/-- components/kafka-protocol-go/pkg/protocol/messages/vote/response.go `Response` -/
def s_vote_Response : Sch :=
  .prim { lo := 0, hi := 32767, flo := 0, fhi := 32767, nlo := 0, nhi := 0 } false (.int 2) .none (   -- errorCode
  .arrS { lo := 0, hi := 32767, flo := 0, fhi := 32767, nlo := 0, nhi := 0 } false (0) (32767) s_vote_response_TopicData (   -- topics
  .nil))

/-- components/kafka-protocol-go/pkg/protocol/messages/writetxnmarkers/request/writabletxnmarker/writabletxnmarkertopic.go `WritableTxnMarkerTopic` -/
def s_writetxnmarkers_request_writabletxnmarker_WritableTxnMarkerTopic : Sch :=
  .prim { lo := 0, hi := 32767, flo := 1, fhi := 32767, nlo := 0, nhi := 0 } false (.str) .none (   -- name
  .arr { lo := 0, hi := 32767, flo := 1, fhi := 32767, nlo := 0, nhi := 0 } false (.int 4) (   -- partitionIndexes
  .nil))

/-- components/kafka-protocol-go/pkg/protocol/messages/writetxnmarkers/request/writabletxnmarker.go `WritableTxnMarker` -/
def s_writetxnmarkers_request_WritableTxnMarker : Sch :=
  .prim { lo := 0, hi := 32767, flo := 1, fhi := 32767, nlo := 0, nhi := 0 } false (.int 8) .none (   -- producerId
  .prim { lo := 0, hi := 32767, flo := 1, fhi := 32767, nlo := 0, nhi := 0 } false (.int 2) .none (   -- producerEpoch
  .prim { lo := 0, hi := 32767, flo := 1, fhi := 32767, nlo := 0, nhi := 0 } false (.bool) .none (   -- transactionResult
  .arrS { lo := 0, hi := 32767, flo := 1, fhi := 32767, nlo := 0, nhi := 0 } false (1) (32767) s_writetxnmarkers_request_writabletxnmarker_WritableTxnMarkerTopic (   -- topics
  .prim { lo := 0, hi := 32767, flo := 1, fhi := 32767, nlo := 0, nhi := 0 } false (.int 4) .none (   -- coordinatorEpoch
  .nil)))))

/-- components/kafka-protocol-go/pkg/protocol/messages/writetxnmarkers/request.go `Request` -/
def s_writetxnmarkers_Request : Sch :=
  .arrS { lo := 0, hi := 32767, flo := 1, fhi := 32767, nlo := 0, nhi := 0 } false (1) (32767) s_writetxnmarkers_request_WritableTxnMarker (   -- markers
  .nil)

/-- components/kafka-protocol-go/pkg/protocol/messages/writetxnmarkers/response/writabletxnmarkerresult/writabletxnmarkertopicresult/writabletxnmarkerpartitionresult.go `WritableTxnMarkerPartitionResult` -/
def s_writetxnmarkers_response_writabletxnmarkerresult_writabletxnmarkertopicresult_WritableTxnMarkerPartitionResult : Sch :=
  .prim { lo := 0, hi := 32767, flo := 1, fhi := 32767, nlo := 0, nhi := 0 } false (.int 4) .none (   -- partitionIndex
  .prim { lo := 0, hi := 32767, flo := 1, fhi := 32767, nlo := 0, nhi := 0 } false (.int 2) .none (   -- errorCode
  .nil))

/-- components/kafka-protocol-go/pkg/protocol/messages/writetxnmarkers/response/writabletxnmarkerresult/writabletxnmarkertopicresult.go `WritableTxnMarkerTopicResult` -/
def s_writetxnmarkers_response_writabletxnmarkerresult_WritableTxnMarkerTopicResult : Sch :=
  .prim { lo := 0, hi := 32767, flo := 1, fhi := 32767, nlo := 0, nhi := 0 } false (.str) .none (   -- name
  .arrS { lo := 0, hi := 32767, flo := 1, fhi := 32767, nlo := 0, nhi := 0 } false (1) (32767) s_writetxnmarkers_response_writabletxnmarkerresult_writabletxnmarkertopicresult_WritableTxnMarkerPartitionResult (   -- partitions
  .nil))

/-- components/kafka-protocol-go/pkg/protocol/messages/writetxnmarkers/response/writabletxnmarkerresult.go `WritableTxnMarkerResult` -/
def s_writetxnmarkers_response_WritableTxnMarkerResult : Sch :=
  .prim { lo := 0, hi := 32767, flo := 1, fhi := 32767, nlo := 0, nhi := 0 } false (.int 8) .none (   -- producerId
  .arrS { lo := 0, hi := 32767, flo := 1, fhi := 32767, nlo := 0, nhi := 0 } false (1) (32767) s_writetxnmarkers_response_writabletxnmarkerresult_WritableTxnMarkerTopicResult (   -- topics
  .nil))

/-- components/kafka-protocol-go/pkg/protocol/messages/writetxnmarkers/response.go `Response` -/
def s_writetxnmarkers_Response : Sch :=
  .arrS { lo := 0, hi := 32767, flo := 1, fhi := 32767, nlo := 0, nhi := 0 } false (1) (32767) s_writetxnmarkers_response_WritableTxnMarkerResult (   -- markers
  .nil)

/-- components/kafka-protocol-go/pkg/protocol/messages/addoffsetstotxn/request.go -/
def e_addoffsetstotxn_Request : Entry := ⟨25, true, 0, 3, ⟨3, 32767, s_addoffsetstotxn_Request⟩⟩

/-- components/kafka-protocol-go/pkg/protocol/messages/addoffsetstotxn/response.go -/
def e_addoffsetstotxn_Response : Entry := ⟨25, false, 0, 3, ⟨3, 32767, s_addoffsetstotxn_Response⟩⟩

/-- components/kafka-protocol-go/pkg/protocol/messages/addpartitionstotxn/request.go -/
def e_addpartitionstotxn_Request : Entry := ⟨24, true, 0, 3, ⟨3, 32767, s_addpartitionstotxn_Request⟩⟩

/-- components/kafka-protocol-go/pkg/protocol/messages/addpartitionstotxn/response.go -/
def e_addpartitionstotxn_Response : Entry := ⟨24, false, 0, 3, ⟨3, 32767, s_addpartitionstotxn_Response⟩⟩

/-- components/kafka-protocol-go/pkg/protocol/messages/allocateproducerids/request.go -/
def e_allocateproducerids_Request : Entry := ⟨67, true, 0, 0, ⟨0, 32767, s_allocateproducerids_Request⟩⟩

/-- components/kafka-protocol-go/pkg/protocol/messages/allocateproducerids/response.go -/
def e_allocateproducerids_Response : Entry := ⟨67, false, 0, 0, ⟨0, 32767, s_allocateproducerids_Response⟩⟩

/-- components/kafka-protocol-go/pkg/protocol/messages/alterclientquotas/request.go -/
def e_alterclientquotas_Request : Entry := ⟨49, true, 0, 1, ⟨1, 32767, s_alterclientquotas_Request⟩⟩

/-- components/kafka-protocol-go/pkg/protocol/messages/alterclientquotas/response.go -/
def e_alterclientquotas_Response : Entry := ⟨49, false, 0, 1, ⟨1, 32767, s_alterclientquotas_Response⟩⟩

/-- components/kafka-protocol-go/pkg/protocol/messages/alterconfigs/request.go -/
def e_alterconfigs_Request : Entry := ⟨33, true, 0, 2, ⟨2, 32767, s_alterconfigs_Request⟩⟩

/-- components/kafka-protocol-go/pkg/protocol/messages/alterconfigs/response.go -/
def e_alterconfigs_Response : Entry := ⟨33, false, 0, 2, ⟨2, 32767, s_alterconfigs_Response⟩⟩

/-- components/kafka-protocol-go/pkg/protocol/messages/alterpartition/request.go -/
def e_alterpartition_Request : Entry := ⟨56, true, 0, 2, ⟨0, 32767, s_alterpartition_Request⟩⟩

/-- components/kafka-protocol-go/pkg/protocol/messages/alterpartition/response.go -/
def e_alterpartition_Response : Entry := ⟨56, false, 0, 2, ⟨0, 32767, s_alterpartition_Response⟩⟩

/-- components/kafka-protocol-go/pkg/protocol/messages/alterpartitionreassignments/request.go -/
def e_alterpartitionreassignments_Request : Entry := ⟨45, true, 0, 0, ⟨0, 32767, s_alterpartitionreassignments_Request⟩⟩

/-- components/kafka-protocol-go/pkg/protocol/messages/alterpartitionreassignments/response.go -/
def e_alterpartitionreassignments_Response : Entry := ⟨45, false, 0, 0, ⟨0, 32767, s_alterpartitionreassignments_Response⟩⟩

/-- components/kafka-protocol-go/pkg/protocol/messages/alterreplicalogdirs/request.go -/
def e_alterreplicalogdirs_Request : Entry := ⟨34, true, 0, 2, ⟨2, 32767, s_alterreplicalogdirs_Request⟩⟩

/-- components/kafka-protocol-go/pkg/protocol/messages/alterreplicalogdirs/response.go -/
def e_alterreplicalogdirs_Response : Entry := ⟨34, false, 0, 2, ⟨2, 32767, s_alterreplicalogdirs_Response⟩⟩

/-- components/kafka-protocol-go/pkg/protocol/messages/alteruserscramcredentials/request.go -/
def e_alteruserscramcredentials_Request : Entry := ⟨51, true, 0, 0, ⟨0, 32767, s_alteruserscramcredentials_Request⟩⟩

/-- components/kafka-protocol-go/pkg/protocol/messages/alteruserscramcredentials/response.go -/
def e_alteruserscramcredentials_Response : Entry := ⟨51, false, 0, 0, ⟨0, 32767, s_alteruserscramcredentials_Response⟩⟩

/-- components/kafka-protocol-go/pkg/protocol/messages/apiversions/request.go -/
def e_apiversions_Request : Entry := ⟨18, true, 0, 3, ⟨3, 32767, s_apiversions_Request⟩⟩

/-- components/kafka-protocol-go/pkg/protocol/messages/apiversions/response.go -/
def e_apiversions_Response : Entry := ⟨18, false, 0, 3, ⟨3, 32767, s_apiversions_Response⟩⟩

/-- components/kafka-protocol-go/pkg/protocol/messages/beginquorumepoch/request.go -/
def e_beginquorumepoch_Request : Entry := ⟨53, true, 0, 0, ⟨32767, 32767, s_beginquorumepoch_Request⟩⟩

/-- components/kafka-protocol-go/pkg/protocol/messages/beginquorumepoch/response.go -/
def e_beginquorumepoch_Response : Entry := ⟨53, false, 0, 0, ⟨32767, 32767, s_beginquorumepoch_Response⟩⟩

/-- components/kafka-protocol-go/pkg/protocol/messages/brokerheartbeat/request.go -/
def e_brokerheartbeat_Request : Entry := ⟨63, true, 0, 0, ⟨0, 32767, s_brokerheartbeat_Request⟩⟩

/-- components/kafka-protocol-go/pkg/protocol/messages/brokerheartbeat/response.go -/
def e_brokerheartbeat_Response : Entry := ⟨63, false, 0, 0, ⟨0, 32767, s_brokerheartbeat_Response⟩⟩

/-- components/kafka-protocol-go/pkg/protocol/messages/brokerregistration/request.go -/
def e_brokerregistration_Request : Entry := ⟨62, true, 0, 1, ⟨0, 32767, s_brokerregistration_Request⟩⟩

/-- components/kafka-protocol-go/pkg/protocol/messages/brokerregistration/response.go -/
def e_brokerregistration_Response : Entry := ⟨62, false, 0, 1, ⟨0, 32767, s_brokerregistration_Response⟩⟩

/-- components/kafka-protocol-go/pkg/protocol/messages/controlledshutdown/request.go -/
def e_controlledshutdown_Request : Entry := ⟨7, true, 0, 3, ⟨3, 32767, s_controlledshutdown_Request⟩⟩

/-- components/kafka-protocol-go/pkg/protocol/messages/controlledshutdown/response.go -/
def e_controlledshutdown_Response : Entry := ⟨7, false, 0, 3, ⟨3, 32767, s_controlledshutdown_Response⟩⟩

/-- components/kafka-protocol-go/pkg/protocol/messages/createacls/request.go -/
def e_createacls_Request : Entry := ⟨30, true, 0, 3, ⟨2, 32767, s_createacls_Request⟩⟩

/-- components/kafka-protocol-go/pkg/protocol/messages/createacls/response.go -/
def e_createacls_Response : Entry := ⟨30, false, 0, 3, ⟨2, 32767, s_createacls_Response⟩⟩

/-- components/kafka-protocol-go/pkg/protocol/messages/createdelegationtoken/request.go -/
def e_createdelegationtoken_Request : Entry := ⟨38, true, 0, 3, ⟨2, 32767, s_createdelegationtoken_Request⟩⟩

/-- components/kafka-protocol-go/pkg/protocol/messages/createdelegationtoken/response.go -/
def e_createdelegationtoken_Response : Entry := ⟨38, false, 0, 3, ⟨2, 32767, s_createdelegationtoken_Response⟩⟩

/-- components/kafka-protocol-go/pkg/protocol/messages/createpartitions/request.go -/
def e_createpartitions_Request : Entry := ⟨37, true, 0, 3, ⟨2, 32767, s_createpartitions_Request⟩⟩

/-- components/kafka-protocol-go/pkg/protocol/messages/createpartitions/response.go -/
def e_createpartitions_Response : Entry := ⟨37, false, 0, 3, ⟨2, 32767, s_createpartitions_Response⟩⟩

/-- components/kafka-protocol-go/pkg/protocol/messages/createtopics/request.go -/
def e_createtopics_Request : Entry := ⟨19, true, 0, 7, ⟨5, 32767, s_createtopics_Request⟩⟩

/-- components/kafka-protocol-go/pkg/protocol/messages/createtopics/response.go -/
def e_createtopics_Response : Entry := ⟨19, false, 0, 7, ⟨5, 32767, s_createtopics_Response⟩⟩

/-- components/kafka-protocol-go/pkg/protocol/messages/deleteacls/request.go -/
def e_deleteacls_Request : Entry := ⟨31, true, 0, 3, ⟨2, 32767, s_deleteacls_Request⟩⟩

/-- components/kafka-protocol-go/pkg/protocol/messages/deleteacls/response.go -/
def e_deleteacls_Response : Entry := ⟨31, false, 0, 3, ⟨2, 32767, s_deleteacls_Response⟩⟩

/-- components/kafka-protocol-go/pkg/protocol/messages/deletegroups/request.go -/
def e_deletegroups_Request : Entry := ⟨42, true, 0, 2, ⟨2, 32767, s_deletegroups_Request⟩⟩

/-- components/kafka-protocol-go/pkg/protocol/messages/deletegroups/response.go -/
def e_deletegroups_Response : Entry := ⟨42, false, 0, 2, ⟨2, 32767, s_deletegroups_Response⟩⟩

/-- components/kafka-protocol-go/pkg/protocol/messages/deleterecords/request.go -/
def e_deleterecords_Request : Entry := ⟨21, true, 0, 2, ⟨2, 32767, s_deleterecords_Request⟩⟩

/-- components/kafka-protocol-go/pkg/protocol/messages/deleterecords/response.go -/
def e_deleterecords_Response : Entry := ⟨21, false, 0, 2, ⟨2, 32767, s_deleterecords_Response⟩⟩

/-- components/kafka-protocol-go/pkg/protocol/messages/deletetopics/request.go -/
def e_deletetopics_Request : Entry := ⟨20, true, 0, 6, ⟨4, 32767, s_deletetopics_Request⟩⟩

/-- components/kafka-protocol-go/pkg/protocol/messages/deletetopics/response.go -/
def e_deletetopics_Response : Entry := ⟨20, false, 0, 6, ⟨4, 32767, s_deletetopics_Response⟩⟩

/-- components/kafka-protocol-go/pkg/protocol/messages/describeacls/request.go -/
def e_describeacls_Request : Entry := ⟨29, true, 0, 3, ⟨2, 32767, s_describeacls_Request⟩⟩

/-- components/kafka-protocol-go/pkg/protocol/messages/describeacls/response.go -/
def e_describeacls_Response : Entry := ⟨29, false, 0, 3, ⟨2, 32767, s_describeacls_Response⟩⟩

/-- components/kafka-protocol-go/pkg/protocol/messages/describeclientquotas/request.go -/
def e_describeclientquotas_Request : Entry := ⟨48, true, 0, 1, ⟨1, 32767, s_describeclientquotas_Request⟩⟩

/-- components/kafka-protocol-go/pkg/protocol/messages/describeclientquotas/response.go -/
def e_describeclientquotas_Response : Entry := ⟨48, false, 0, 1, ⟨1, 32767, s_describeclientquotas_Response⟩⟩

/-- components/kafka-protocol-go/pkg/protocol/messages/describecluster/request.go -/
def e_describecluster_Request : Entry := ⟨60, true, 0, 0, ⟨0, 32767, s_describecluster_Request⟩⟩

/-- components/kafka-protocol-go/pkg/protocol/messages/describecluster/response.go -/
def e_describecluster_Response : Entry := ⟨60, false, 0, 0, ⟨0, 32767, s_describecluster_Response⟩⟩

/-- components/kafka-protocol-go/pkg/protocol/messages/describeconfigs/request.go -/
def e_describeconfigs_Request : Entry := ⟨32, true, 0, 4, ⟨4, 32767, s_describeconfigs_Request⟩⟩

/-- components/kafka-protocol-go/pkg/protocol/messages/describeconfigs/response.go -/
def e_describeconfigs_Response : Entry := ⟨32, false, 0, 4, ⟨4, 32767, s_describeconfigs_Response⟩⟩

/-- components/kafka-protocol-go/pkg/protocol/messages/describedelegationtoken/request.go -/
def e_describedelegationtoken_Request : Entry := ⟨41, true, 0, 3, ⟨2, 32767, s_describedelegationtoken_Request⟩⟩

/-- components/kafka-protocol-go/pkg/protocol/messages/describedelegationtoken/response.go -/
def e_describedelegationtoken_Response : Entry := ⟨41, false, 0, 3, ⟨2, 32767, s_describedelegationtoken_Response⟩⟩

/-- components/kafka-protocol-go/pkg/protocol/messages/describegroups/request.go -/
def e_describegroups_Request : Entry := ⟨15, true, 0, 5, ⟨5, 32767, s_describegroups_Request⟩⟩

/-- components/kafka-protocol-go/pkg/protocol/messages/describegroups/response.go -/
def e_describegroups_Response : Entry := ⟨15, false, 0, 5, ⟨5, 32767, s_describegroups_Response⟩⟩

/-- components/kafka-protocol-go/pkg/protocol/messages/describelogdirs/request.go -/
def e_describelogdirs_Request : Entry := ⟨35, true, 0, 4, ⟨2, 32767, s_describelogdirs_Request⟩⟩

/-- components/kafka-protocol-go/pkg/protocol/messages/describelogdirs/response.go -/
def e_describelogdirs_Response : Entry := ⟨35, false, 0, 4, ⟨2, 32767, s_describelogdirs_Response⟩⟩

/-- components/kafka-protocol-go/pkg/protocol/messages/describeproducers/request.go -/
def e_describeproducers_Request : Entry := ⟨61, true, 0, 0, ⟨0, 32767, s_describeproducers_Request⟩⟩

/-- components/kafka-protocol-go/pkg/protocol/messages/describeproducers/response.go -/
def e_describeproducers_Response : Entry := ⟨61, false, 0, 0, ⟨0, 32767, s_describeproducers_Response⟩⟩

/-- components/kafka-protocol-go/pkg/protocol/messages/describequorum/request.go -/
def e_describequorum_Request : Entry := ⟨55, true, 0, 1, ⟨0, 32767, s_describequorum_Request⟩⟩

/-- components/kafka-protocol-go/pkg/protocol/messages/describequorum/response.go -/
def e_describequorum_Response : Entry := ⟨55, false, 0, 1, ⟨0, 32767, s_describequorum_Response⟩⟩

/-- components/kafka-protocol-go/pkg/protocol/messages/describetransactions/request.go -/
def e_describetransactions_Request : Entry := ⟨65, true, 0, 0, ⟨0, 32767, s_describetransactions_Request⟩⟩

/-- components/kafka-protocol-go/pkg/protocol/messages/describetransactions/response.go -/
def e_describetransactions_Response : Entry := ⟨65, false, 0, 0, ⟨0, 32767, s_describetransactions_Response⟩⟩

/-- components/kafka-protocol-go/pkg/protocol/messages/describeuserscramcredentials/request.go -/
def e_describeuserscramcredentials_Request : Entry := ⟨50, true, 0, 0, ⟨0, 32767, s_describeuserscramcredentials_Request⟩⟩

/-- components/kafka-protocol-go/pkg/protocol/messages/describeuserscramcredentials/response.go -/
def e_describeuserscramcredentials_Response : Entry := ⟨50, false, 0, 0, ⟨0, 32767, s_describeuserscramcredentials_Response⟩⟩

/-- components/kafka-protocol-go/pkg/protocol/messages/electleaders/request.go -/
def e_electleaders_Request : Entry := ⟨43, true, 0, 2, ⟨2, 32767, s_electleaders_Request⟩⟩

/-- components/kafka-protocol-go/pkg/protocol/messages/electleaders/response.go -/
def e_electleaders_Response : Entry := ⟨43, false, 0, 2, ⟨2, 32767, s_electleaders_Response⟩⟩

/-- components/kafka-protocol-go/pkg/protocol/messages/endquorumepoch/request.go -/
def e_endquorumepoch_Request : Entry := ⟨54, true, 0, 0, ⟨32767, 32767, s_endquorumepoch_Request⟩⟩

/-- components/kafka-protocol-go/pkg/protocol/messages/endquorumepoch/response.go -/
def e_endquorumepoch_Response : Entry := ⟨54, false, 0, 0, ⟨32767, 32767, s_endquorumepoch_Response⟩⟩

/-- components/kafka-protocol-go/pkg/protocol/messages/endtxn/request.go -/
def e_endtxn_Request : Entry := ⟨26, true, 0, 3, ⟨3, 32767, s_endtxn_Request⟩⟩

/-- components/kafka-protocol-go/pkg/protocol/messages/endtxn/response.go -/
def e_endtxn_Response : Entry := ⟨26, false, 0, 3, ⟨3, 32767, s_endtxn_Response⟩⟩

/-- components/kafka-protocol-go/pkg/protocol/messages/envelope/request.go -/
def e_envelope_Request : Entry := ⟨58, true, 0, 0, ⟨0, 32767, s_envelope_Request⟩⟩

/-- components/kafka-protocol-go/pkg/protocol/messages/envelope/response.go -/
def e_envelope_Response : Entry := ⟨58, false, 0, 0, ⟨0, 32767, s_envelope_Response⟩⟩

/-- components/kafka-protocol-go/pkg/protocol/messages/expiredelegationtoken/request.go -/
def e_expiredelegationtoken_Request : Entry := ⟨40, true, 0, 2, ⟨2, 32767, s_expiredelegationtoken_Request⟩⟩

/-- components/kafka-protocol-go/pkg/protocol/messages/expiredelegationtoken/response.go -/
def e_expiredelegationtoken_Response : Entry := ⟨40, false, 0, 2, ⟨2, 32767, s_expiredelegationtoken_Response⟩⟩

/-- components/kafka-protocol-go/pkg/protocol/messages/fetch/request.go -/
def e_fetch_Request : Entry := ⟨1, true, 0, 13, ⟨12, 32767, s_fetch_Request⟩⟩

/-- components/kafka-protocol-go/pkg/protocol/messages/fetch/response.go -/
def e_fetch_Response : Entry := ⟨1, false, 0, 13, ⟨12, 32767, s_fetch_Response⟩⟩

/-- components/kafka-protocol-go/pkg/protocol/messages/fetchsnapshot/request.go -/
def e_fetchsnapshot_Request : Entry := ⟨59, true, 0, 0, ⟨0, 32767, s_fetchsnapshot_Request⟩⟩

/-- components/kafka-protocol-go/pkg/protocol/messages/fetchsnapshot/response.go -/
def e_fetchsnapshot_Response : Entry := ⟨59, false, 0, 0, ⟨0, 32767, s_fetchsnapshot_Response⟩⟩

/-- components/kafka-protocol-go/pkg/protocol/messages/findcoordinator/request.go -/
def e_findcoordinator_Request : Entry := ⟨10, true, 0, 4, ⟨3, 32767, s_findcoordinator_Request⟩⟩

/-- components/kafka-protocol-go/pkg/protocol/messages/findcoordinator/response.go -/
def e_findcoordinator_Response : Entry := ⟨10, false, 0, 4, ⟨3, 32767, s_findcoordinator_Response⟩⟩

/-- components/kafka-protocol-go/pkg/protocol/messages/heartbeat/request.go -/
def e_heartbeat_Request : Entry := ⟨12, true, 0, 4, ⟨4, 32767, s_heartbeat_Request⟩⟩

/-- components/kafka-protocol-go/pkg/protocol/messages/heartbeat/response.go -/
def e_heartbeat_Response : Entry := ⟨12, false, 0, 4, ⟨4, 32767, s_heartbeat_Response⟩⟩

/-- components/kafka-protocol-go/pkg/protocol/messages/incrementalalterconfigs/request.go -/
def e_incrementalalterconfigs_Request : Entry := ⟨44, true, 0, 1, ⟨1, 32767, s_incrementalalterconfigs_Request⟩⟩

/-- components/kafka-protocol-go/pkg/protocol/messages/incrementalalterconfigs/response.go -/
def e_incrementalalterconfigs_Response : Entry := ⟨44, false, 0, 1, ⟨1, 32767, s_incrementalalterconfigs_Response⟩⟩

/-- components/kafka-protocol-go/pkg/protocol/messages/initproducerid/request.go -/
def e_initproducerid_Request : Entry := ⟨22, true, 0, 4, ⟨2, 32767, s_initproducerid_Request⟩⟩

/-- components/kafka-protocol-go/pkg/protocol/messages/initproducerid/response.go -/
def e_initproducerid_Response : Entry := ⟨22, false, 0, 4, ⟨2, 32767, s_initproducerid_Response⟩⟩

/-- components/kafka-protocol-go/pkg/protocol/messages/joingroup/request.go -/
def e_joingroup_Request : Entry := ⟨11, true, 0, 9, ⟨6, 32767, s_joingroup_Request⟩⟩

/-- components/kafka-protocol-go/pkg/protocol/messages/joingroup/response.go -/
def e_joingroup_Response : Entry := ⟨11, false, 0, 9, ⟨6, 32767, s_joingroup_Response⟩⟩

/-- components/kafka-protocol-go/pkg/protocol/messages/leaderandisr/request.go -/
def e_leaderandisr_Request : Entry := ⟨4, true, 0, 7, ⟨4, 32767, s_leaderandisr_Request⟩⟩

/-- components/kafka-protocol-go/pkg/protocol/messages/leaderandisr/response.go -/
def e_leaderandisr_Response : Entry := ⟨4, false, 0, 7, ⟨4, 32767, s_leaderandisr_Response⟩⟩

/-- components/kafka-protocol-go/pkg/protocol/messages/leavegroup/request.go -/
def e_leavegroup_Request : Entry := ⟨13, true, 0, 5, ⟨4, 32767, s_leavegroup_Request⟩⟩

/-- components/kafka-protocol-go/pkg/protocol/messages/leavegroup/response.go -/
def e_leavegroup_Response : Entry := ⟨13, false, 0, 5, ⟨4, 32767, s_leavegroup_Response⟩⟩

/-- components/kafka-protocol-go/pkg/protocol/messages/listgroups/request.go -/
def e_listgroups_Request : Entry := ⟨16, true, 0, 4, ⟨3, 32767, s_listgroups_Request⟩⟩

/-- components/kafka-protocol-go/pkg/protocol/messages/listgroups/response.go -/
def e_listgroups_Response : Entry := ⟨16, false, 0, 4, ⟨3, 32767, s_listgroups_Response⟩⟩

/-- components/kafka-protocol-go/pkg/protocol/messages/listoffsets/request.go -/
def e_listoffsets_Request : Entry := ⟨2, true, 0, 7, ⟨6, 32767, s_listoffsets_Request⟩⟩

/-- components/kafka-protocol-go/pkg/protocol/messages/listoffsets/response.go -/
def e_listoffsets_Response : Entry := ⟨2, false, 0, 7, ⟨6, 32767, s_listoffsets_Response⟩⟩

/-- components/kafka-protocol-go/pkg/protocol/messages/listpartitionreassignments/request.go -/
def e_listpartitionreassignments_Request : Entry := ⟨46, true, 0, 0, ⟨0, 32767, s_listpartitionreassignments_Request⟩⟩

/-- components/kafka-protocol-go/pkg/protocol/messages/listpartitionreassignments/response.go -/
def e_listpartitionreassignments_Response : Entry := ⟨46, false, 0, 0, ⟨0, 32767, s_listpartitionreassignments_Response⟩⟩

/-- components/kafka-protocol-go/pkg/protocol/messages/listtransactions/request.go -/
def e_listtransactions_Request : Entry := ⟨66, true, 0, 0, ⟨0, 32767, s_listtransactions_Request⟩⟩

/-- components/kafka-protocol-go/pkg/protocol/messages/listtransactions/response.go -/
def e_listtransactions_Response : Entry := ⟨66, false, 0, 0, ⟨0, 32767, s_listtransactions_Response⟩⟩

/-- components/kafka-protocol-go/pkg/protocol/messages/metadata/request.go -/
def e_metadata_Request : Entry := ⟨3, true, 0, 12, ⟨9, 32767, s_metadata_Request⟩⟩

/-- components/kafka-protocol-go/pkg/protocol/messages/metadata/response.go -/
def e_metadata_Response : Entry := ⟨3, false, 0, 12, ⟨9, 32767, s_metadata_Response⟩⟩

/-- components/kafka-protocol-go/pkg/protocol/messages/offsetcommit/request.go -/
def e_offsetcommit_Request : Entry := ⟨8, true, 0, 8, ⟨8, 32767, s_offsetcommit_Request⟩⟩

/-- components/kafka-protocol-go/pkg/protocol/messages/offsetcommit/response.go -/
def e_offsetcommit_Response : Entry := ⟨8, false, 0, 8, ⟨8, 32767, s_offsetcommit_Response⟩⟩

/-- components/kafka-protocol-go/pkg/protocol/messages/offsetdelete/request.go -/
def e_offsetdelete_Request : Entry := ⟨47, true, 0, 0, ⟨32767, 32767, s_offsetdelete_Request⟩⟩

/-- components/kafka-protocol-go/pkg/protocol/messages/offsetdelete/response.go -/
def e_offsetdelete_Response : Entry := ⟨47, false, 0, 0, ⟨32767, 32767, s_offsetdelete_Response⟩⟩

/-- components/kafka-protocol-go/pkg/protocol/messages/offsetfetch/request.go -/
def e_offsetfetch_Request : Entry := ⟨9, true, 0, 8, ⟨6, 32767, s_offsetfetch_Request⟩⟩

/-- components/kafka-protocol-go/pkg/protocol/messages/offsetfetch/response.go -/
def e_offsetfetch_Response : Entry := ⟨9, false, 0, 8, ⟨6, 32767, s_offsetfetch_Response⟩⟩

/-- components/kafka-protocol-go/pkg/protocol/messages/offsetforleaderepoch/request.go -/
def e_offsetforleaderepoch_Request : Entry := ⟨23, true, 0, 4, ⟨4, 32767, s_offsetforleaderepoch_Request⟩⟩

/-- components/kafka-protocol-go/pkg/protocol/messages/offsetforleaderepoch/response.go -/
def e_offsetforleaderepoch_Response : Entry := ⟨23, false, 0, 4, ⟨4, 32767, s_offsetforleaderepoch_Response⟩⟩

/-- components/kafka-protocol-go/pkg/protocol/messages/produce/request.go -/
def e_produce_Request : Entry := ⟨0, true, 0, 9, ⟨9, 32767, s_produce_Request⟩⟩

/-- components/kafka-protocol-go/pkg/protocol/messages/produce/response.go -/
def e_produce_Response : Entry := ⟨0, false, 0, 9, ⟨9, 32767, s_produce_Response⟩⟩

/-- components/kafka-protocol-go/pkg/protocol/messages/renewdelegationtoken/request.go -/
def e_renewdelegationtoken_Request : Entry := ⟨39, true, 0, 2, ⟨2, 32767, s_renewdelegationtoken_Request⟩⟩

/-- components/kafka-protocol-go/pkg/protocol/messages/renewdelegationtoken/response.go -/
def e_renewdelegationtoken_Response : Entry := ⟨39, false, 0, 2, ⟨2, 32767, s_renewdelegationtoken_Response⟩⟩

/-- components/kafka-protocol-go/pkg/protocol/messages/request/header.go; versions 0-2 -/
def m_request_Header : Msg := ⟨2, 32767, s_request_Header⟩

/-- components/kafka-protocol-go/pkg/protocol/messages/response/header.go; versions 0-1 -/
def m_response_Header : Msg := ⟨1, 32767, s_response_Header⟩

/-- components/kafka-protocol-go/pkg/protocol/messages/saslauthenticate/request.go -/
def e_saslauthenticate_Request : Entry := ⟨36, true, 0, 2, ⟨2, 32767, s_saslauthenticate_Request⟩⟩

/-- components/kafka-protocol-go/pkg/protocol/messages/saslauthenticate/response.go -/
def e_saslauthenticate_Response : Entry := ⟨36, false, 0, 2, ⟨2, 32767, s_saslauthenticate_Response⟩⟩

/-- components/kafka-protocol-go/pkg/protocol/messages/saslhandshake/request.go -/
def e_saslhandshake_Request : Entry := ⟨17, true, 0, 1, ⟨32767, 32767, s_saslhandshake_Request⟩⟩

/-- components/kafka-protocol-go/pkg/protocol/messages/saslhandshake/response.go -/
def e_saslhandshake_Response : Entry := ⟨17, false, 0, 1, ⟨32767, 32767, s_saslhandshake_Response⟩⟩

/-- components/kafka-protocol-go/pkg/protocol/messages/stopreplica/request.go -/
def e_stopreplica_Request : Entry := ⟨5, true, 0, 4, ⟨2, 32767, s_stopreplica_Request⟩⟩

/-- components/kafka-protocol-go/pkg/protocol/messages/stopreplica/response.go -/
def e_stopreplica_Response : Entry := ⟨5, false, 0, 4, ⟨2, 32767, s_stopreplica_Response⟩⟩

/-- components/kafka-protocol-go/pkg/protocol/messages/syncgroup/request.go -/
def e_syncgroup_Request : Entry := ⟨14, true, 0, 5, ⟨4, 32767, s_syncgroup_Request⟩⟩

/-- components/kafka-protocol-go/pkg/protocol/messages/syncgroup/response.go -/
def e_syncgroup_Response : Entry := ⟨14, false, 0, 5, ⟨4, 32767, s_syncgroup_Response⟩⟩

/-- components/kafka-protocol-go/pkg/protocol/messages/txnoffsetcommit/request.go -/
def e_txnoffsetcommit_Request : Entry := ⟨28, true, 0, 3, ⟨3, 32767, s_txnoffsetcommit_Request⟩⟩

/-- components/kafka-protocol-go/pkg/protocol/messages/txnoffsetcommit/response.go -/
def e_txnoffsetcommit_Response : Entry := ⟨28, false, 0, 3, ⟨3, 32767, s_txnoffsetcommit_Response⟩⟩

/-- components/kafka-protocol-go/pkg/protocol/messages/unregisterbroker/request.go -/
def e_unregisterbroker_Request : Entry := ⟨64, true, 0, 0, ⟨0, 32767, s_unregisterbroker_Request⟩⟩

/-- components/kafka-protocol-go/pkg/protocol/messages/unregisterbroker/response.go -/
def e_unregisterbroker_Response : Entry := ⟨64, false, 0, 0, ⟨0, 32767, s_unregisterbroker_Response⟩⟩

/-- components/kafka-protocol-go/pkg/protocol/messages/updatefeatures/request.go -/
def e_updatefeatures_Request : Entry := ⟨57, true, 0, 1, ⟨0, 32767, s_updatefeatures_Request⟩⟩

/-- components/kafka-protocol-go/pkg/protocol/messages/updatefeatures/response.go -/
def e_updatefeatures_Response : Entry := ⟨57, false, 0, 1, ⟨0, 32767, s_updatefeatures_Response⟩⟩

/-- components/kafka-protocol-go/pkg/protocol/messages/updatemetadata/request.go -/
def e_updatemetadata_Request : Entry := ⟨6, true, 0, 8, ⟨6, 32767, s_updatemetadata_Request⟩⟩

/-- components/kafka-protocol-go/pkg/protocol/messages/updatemetadata/response.go -/
def e_updatemetadata_Response : Entry := ⟨6, false, 0, 8, ⟨6, 32767, s_updatemetadata_Response⟩⟩

/-- components/kafka-protocol-go/pkg/protocol/messages/vote/request.go -/
def e_vote_Request : Entry := ⟨52, true, 0, 0, ⟨0, 32767, s_vote_Request⟩⟩

/-- components/kafka-protocol-go/pkg/protocol/messages/vote/response.go -/
def e_vote_Response : Entry := ⟨52, false, 0, 0, ⟨0, 32767, s_vote_Response⟩⟩

/-- components/kafka-protocol-go/pkg/protocol/messages/writetxnmarkers/request.go -/
def e_writetxnmarkers_Request : Entry := ⟨27, true, 0, 1, ⟨1, 32767, s_writetxnmarkers_Request⟩⟩

/-- components/kafka-protocol-go/pkg/protocol/messages/writetxnmarkers/response.go -/
def e_writetxnmarkers_Response : Entry := ⟨27, false, 0, 1, ⟨1, 32767, s_writetxnmarkers_Response⟩⟩

/-- every request struct -/
def requests : List Entry := [
  ⟨25, true, 0, 3, ⟨3, 32767, s_addoffsetstotxn_Request⟩⟩,
  ⟨24, true, 0, 3, ⟨3, 32767, s_addpartitionstotxn_Request⟩⟩,
  ⟨67, true, 0, 0, ⟨0, 32767, s_allocateproducerids_Request⟩⟩,
  ⟨49, true, 0, 1, ⟨1, 32767, s_alterclientquotas_Request⟩⟩,
  ⟨33, true, 0, 2, ⟨2, 32767, s_alterconfigs_Request⟩⟩,
  ⟨56, true, 0, 2, ⟨0, 32767, s_alterpartition_Request⟩⟩,
  ⟨45, true, 0, 0, ⟨0, 32767, s_alterpartitionreassignments_Request⟩⟩,
  ⟨34, true, 0, 2, ⟨2, 32767, s_alterreplicalogdirs_Request⟩⟩,
  ⟨51, true, 0, 0, ⟨0, 32767, s_alteruserscramcredentials_Request⟩⟩,
  ⟨18, true, 0, 3, ⟨3, 32767, s_apiversions_Request⟩⟩,
  ⟨53, true, 0, 0, ⟨32767, 32767, s_beginquorumepoch_Request⟩⟩,
  ⟨63, true, 0, 0, ⟨0, 32767, s_brokerheartbeat_Request⟩⟩,
  ⟨62, true, 0, 1, ⟨0, 32767, s_brokerregistration_Request⟩⟩,
  ⟨7, true, 0, 3, ⟨3, 32767, s_controlledshutdown_Request⟩⟩,
  ⟨30, true, 0, 3, ⟨2, 32767, s_createacls_Request⟩⟩,
  ⟨38, true, 0, 3, ⟨2, 32767, s_createdelegationtoken_Request⟩⟩,
  ⟨37, true, 0, 3, ⟨2, 32767, s_createpartitions_Request⟩⟩,
  ⟨19, true, 0, 7, ⟨5, 32767, s_createtopics_Request⟩⟩,
  ⟨31, true, 0, 3, ⟨2, 32767, s_deleteacls_Request⟩⟩,
  ⟨42, true, 0, 2, ⟨2, 32767, s_deletegroups_Request⟩⟩,
  ⟨21, true, 0, 2, ⟨2, 32767, s_deleterecords_Request⟩⟩,
  ⟨20, true, 0, 6, ⟨4, 32767, s_deletetopics_Request⟩⟩,
  ⟨29, true, 0, 3, ⟨2, 32767, s_describeacls_Request⟩⟩,
  ⟨48, true, 0, 1, ⟨1, 32767, s_describeclientquotas_Request⟩⟩,
  ⟨60, true, 0, 0, ⟨0, 32767, s_describecluster_Request⟩⟩,
  ⟨32, true, 0, 4, ⟨4, 32767, s_describeconfigs_Request⟩⟩,
  ⟨41, true, 0, 3, ⟨2, 32767, s_describedelegationtoken_Request⟩⟩,
  ⟨15, true, 0, 5, ⟨5, 32767, s_describegroups_Request⟩⟩,
  ⟨35, true, 0, 4, ⟨2, 32767, s_describelogdirs_Request⟩⟩,
  ⟨61, true, 0, 0, ⟨0, 32767, s_describeproducers_Request⟩⟩,
  ⟨55, true, 0, 1, ⟨0, 32767, s_describequorum_Request⟩⟩,
  ⟨65, true, 0, 0, ⟨0, 32767, s_describetransactions_Request⟩⟩,
  ⟨50, true, 0, 0, ⟨0, 32767, s_describeuserscramcredentials_Request⟩⟩,
  ⟨43, true, 0, 2, ⟨2, 32767, s_electleaders_Request⟩⟩,
  ⟨54, true, 0, 0, ⟨32767, 32767, s_endquorumepoch_Request⟩⟩,
  ⟨26, true, 0, 3, ⟨3, 32767, s_endtxn_Request⟩⟩,
  ⟨58, true, 0, 0, ⟨0, 32767, s_envelope_Request⟩⟩,
  ⟨40, true, 0, 2, ⟨2, 32767, s_expiredelegationtoken_Request⟩⟩,
  ⟨1, true, 0, 13, ⟨12, 32767, s_fetch_Request⟩⟩,
  ⟨59, true, 0, 0, ⟨0, 32767, s_fetchsnapshot_Request⟩⟩,
  ⟨10, true, 0, 4, ⟨3, 32767, s_findcoordinator_Request⟩⟩,
  ⟨12, true, 0, 4, ⟨4, 32767, s_heartbeat_Request⟩⟩,
  ⟨44, true, 0, 1, ⟨1, 32767, s_incrementalalterconfigs_Request⟩⟩,
  ⟨22, true, 0, 4, ⟨2, 32767, s_initproducerid_Request⟩⟩,
  ⟨11, true, 0, 9, ⟨6, 32767, s_joingroup_Request⟩⟩,
  ⟨4, true, 0, 7, ⟨4, 32767, s_leaderandisr_Request⟩⟩,
  ⟨13, true, 0, 5, ⟨4, 32767, s_leavegroup_Request⟩⟩,
  ⟨16, true, 0, 4, ⟨3, 32767, s_listgroups_Request⟩⟩,
  ⟨2, true, 0, 7, ⟨6, 32767, s_listoffsets_Request⟩⟩,
  ⟨46, true, 0, 0, ⟨0, 32767, s_listpartitionreassignments_Request⟩⟩,
  ⟨66, true, 0, 0, ⟨0, 32767, s_listtransactions_Request⟩⟩,
  ⟨3, true, 0, 12, ⟨9, 32767, s_metadata_Request⟩⟩,
  ⟨8, true, 0, 8, ⟨8, 32767, s_offsetcommit_Request⟩⟩,
  ⟨47, true, 0, 0, ⟨32767, 32767, s_offsetdelete_Request⟩⟩,
  ⟨9, true, 0, 8, ⟨6, 32767, s_offsetfetch_Request⟩⟩,
  ⟨23, true, 0, 4, ⟨4, 32767, s_offsetforleaderepoch_Request⟩⟩,
  ⟨0, true, 0, 9, ⟨9, 32767, s_produce_Request⟩⟩,
  ⟨39, true, 0, 2, ⟨2, 32767, s_renewdelegationtoken_Request⟩⟩,
  ⟨36, true, 0, 2, ⟨2, 32767, s_saslauthenticate_Request⟩⟩,
  ⟨17, true, 0, 1, ⟨32767, 32767, s_saslhandshake_Request⟩⟩,
  ⟨5, true, 0, 4, ⟨2, 32767, s_stopreplica_Request⟩⟩,
  ⟨14, true, 0, 5, ⟨4, 32767, s_syncgroup_Request⟩⟩,
  ⟨28, true, 0, 3, ⟨3, 32767, s_txnoffsetcommit_Request⟩⟩,
  ⟨64, true, 0, 0, ⟨0, 32767, s_unregisterbroker_Request⟩⟩,
  ⟨57, true, 0, 1, ⟨0, 32767, s_updatefeatures_Request⟩⟩,
  ⟨6, true, 0, 8, ⟨6, 32767, s_updatemetadata_Request⟩⟩,
  ⟨52, true, 0, 0, ⟨0, 32767, s_vote_Request⟩⟩,
  ⟨27, true, 0, 1, ⟨1, 32767, s_writetxnmarkers_Request⟩⟩]

/-- every response struct -/
def responses : List Entry := [
  ⟨25, false, 0, 3, ⟨3, 32767, s_addoffsetstotxn_Response⟩⟩,
  ⟨24, false, 0, 3, ⟨3, 32767, s_addpartitionstotxn_Response⟩⟩,
  ⟨67, false, 0, 0, ⟨0, 32767, s_allocateproducerids_Response⟩⟩,
  ⟨49, false, 0, 1, ⟨1, 32767, s_alterclientquotas_Response⟩⟩,
  ⟨33, false, 0, 2, ⟨2, 32767, s_alterconfigs_Response⟩⟩,
  ⟨56, false, 0, 2, ⟨0, 32767, s_alterpartition_Response⟩⟩,
  ⟨45, false, 0, 0, ⟨0, 32767, s_alterpartitionreassignments_Response⟩⟩,
  ⟨34, false, 0, 2, ⟨2, 32767, s_alterreplicalogdirs_Response⟩⟩,
  ⟨51, false, 0, 0, ⟨0, 32767, s_alteruserscramcredentials_Response⟩⟩,
  ⟨18, false, 0, 3, ⟨3, 32767, s_apiversions_Response⟩⟩,
  ⟨53, false, 0, 0, ⟨32767, 32767, s_beginquorumepoch_Response⟩⟩,
  ⟨63, false, 0, 0, ⟨0, 32767, s_brokerheartbeat_Response⟩⟩,
  ⟨62, false, 0, 1, ⟨0, 32767, s_brokerregistration_Response⟩⟩,
  ⟨7, false, 0, 3, ⟨3, 32767, s_controlledshutdown_Response⟩⟩,
  ⟨30, false, 0, 3, ⟨2, 32767, s_createacls_Response⟩⟩,
  ⟨38, false, 0, 3, ⟨2, 32767, s_createdelegationtoken_Response⟩⟩,
  ⟨37, false, 0, 3, ⟨2, 32767, s_createpartitions_Response⟩⟩,
  ⟨19, false, 0, 7, ⟨5, 32767, s_createtopics_Response⟩⟩,
  ⟨31, false, 0, 3, ⟨2, 32767, s_deleteacls_Response⟩⟩,
  ⟨42, false, 0, 2, ⟨2, 32767, s_deletegroups_Response⟩⟩,
  ⟨21, false, 0, 2, ⟨2, 32767, s_deleterecords_Response⟩⟩,
  ⟨20, false, 0, 6, ⟨4, 32767, s_deletetopics_Response⟩⟩,
  ⟨29, false, 0, 3, ⟨2, 32767, s_describeacls_Response⟩⟩,
  ⟨48, false, 0, 1, ⟨1, 32767, s_describeclientquotas_Response⟩⟩,
  ⟨60, false, 0, 0, ⟨0, 32767, s_describecluster_Response⟩⟩,
  ⟨32, false, 0, 4, ⟨4, 32767, s_describeconfigs_Response⟩⟩,
  ⟨41, false, 0, 3, ⟨2, 32767, s_describedelegationtoken_Response⟩⟩,
  ⟨15, false, 0, 5, ⟨5, 32767, s_describegroups_Response⟩⟩,
  ⟨35, false, 0, 4, ⟨2, 32767, s_describelogdirs_Response⟩⟩,
  ⟨61, false, 0, 0, ⟨0, 32767, s_describeproducers_Response⟩⟩,
  ⟨55, false, 0, 1, ⟨0, 32767, s_describequorum_Response⟩⟩,
  ⟨65, false, 0, 0, ⟨0, 32767, s_describetransactions_Response⟩⟩,
  ⟨50, false, 0, 0, ⟨0, 32767, s_describeuserscramcredentials_Response⟩⟩,
  ⟨43, false, 0, 2, ⟨2, 32767, s_electleaders_Response⟩⟩,
  ⟨54, false, 0, 0, ⟨32767, 32767, s_endquorumepoch_Response⟩⟩,
  ⟨26, false, 0, 3, ⟨3, 32767, s_endtxn_Response⟩⟩,
  ⟨58, false, 0, 0, ⟨0, 32767, s_envelope_Response⟩⟩,
  ⟨40, false, 0, 2, ⟨2, 32767, s_expiredelegationtoken_Response⟩⟩,
  ⟨1, false, 0, 13, ⟨12, 32767, s_fetch_Response⟩⟩,
  ⟨59, false, 0, 0, ⟨0, 32767, s_fetchsnapshot_Response⟩⟩,
  ⟨10, false, 0, 4, ⟨3, 32767, s_findcoordinator_Response⟩⟩,
  ⟨12, false, 0, 4, ⟨4, 32767, s_heartbeat_Response⟩⟩,
  ⟨44, false, 0, 1, ⟨1, 32767, s_incrementalalterconfigs_Response⟩⟩,
  ⟨22, false, 0, 4, ⟨2, 32767, s_initproducerid_Response⟩⟩,
  ⟨11, false, 0, 9, ⟨6, 32767, s_joingroup_Response⟩⟩,
  ⟨4, false, 0, 7, ⟨4, 32767, s_leaderandisr_Response⟩⟩,
  ⟨13, false, 0, 5, ⟨4, 32767, s_leavegroup_Response⟩⟩,
  ⟨16, false, 0, 4, ⟨3, 32767, s_listgroups_Response⟩⟩,
  ⟨2, false, 0, 7, ⟨6, 32767, s_listoffsets_Response⟩⟩,
  ⟨46, false, 0, 0, ⟨0, 32767, s_listpartitionreassignments_Response⟩⟩,
  ⟨66, false, 0, 0, ⟨0, 32767, s_listtransactions_Response⟩⟩,
  ⟨3, false, 0, 12, ⟨9, 32767, s_metadata_Response⟩⟩,
  ⟨8, false, 0, 8, ⟨8, 32767, s_offsetcommit_Response⟩⟩,
  ⟨47, false, 0, 0, ⟨32767, 32767, s_offsetdelete_Response⟩⟩,
  ⟨9, false, 0, 8, ⟨6, 32767, s_offsetfetch_Response⟩⟩,
  ⟨23, false, 0, 4, ⟨4, 32767, s_offsetforleaderepoch_Response⟩⟩,
  ⟨0, false, 0, 9, ⟨9, 32767, s_produce_Response⟩⟩,
  ⟨39, false, 0, 2, ⟨2, 32767, s_renewdelegationtoken_Response⟩⟩,
  ⟨36, false, 0, 2, ⟨2, 32767, s_saslauthenticate_Response⟩⟩,
  ⟨17, false, 0, 1, ⟨32767, 32767, s_saslhandshake_Response⟩⟩,
  ⟨5, false, 0, 4, ⟨2, 32767, s_stopreplica_Response⟩⟩,
  ⟨14, false, 0, 5, ⟨4, 32767, s_syncgroup_Response⟩⟩,
  ⟨28, false, 0, 3, ⟨3, 32767, s_txnoffsetcommit_Response⟩⟩,
  ⟨64, false, 0, 0, ⟨0, 32767, s_unregisterbroker_Response⟩⟩,
  ⟨57, false, 0, 1, ⟨0, 32767, s_updatefeatures_Response⟩⟩,
  ⟨6, false, 0, 8, ⟨6, 32767, s_updatemetadata_Response⟩⟩,
  ⟨52, false, 0, 0, ⟨0, 32767, s_vote_Response⟩⟩,
  ⟨27, false, 0, 1, ⟨1, 32767, s_writetxnmarkers_Response⟩⟩]

end Verif.Kafka.Gen
