import Verif.Kafka.Generator
/- Generated by tools/extract_spec.py from components/kafka-protocol-go/assets/protocol_spec/*.json. Do not edit. -/
namespace Verif.Kafka.Gen
open Verif.Kafka

/-- assets/protocol_spec/AddOffsetsToTxnRequest.json -/
def p_AddOffsetsToTxnRequest : MSpec where
  apiKey := 25
  typ := "request".toList
  name := "AddOffsetsToTxnRequest".toList
  valid := "0-3".toList
  flex := "3+".toList
  common := []
  fields :=
    (.cons { name := "TransactionalId".toList, typ := "string".toList, versions := "0+".toList } .nil
    (.cons { name := "ProducerId".toList, typ := "int64".toList, versions := "0+".toList } .nil
    (.cons { name := "ProducerEpoch".toList, typ := "int16".toList, versions := "0+".toList } .nil
    (.cons { name := "GroupId".toList, typ := "string".toList, versions := "0+".toList } .nil
    .nil))))

/-- assets/protocol_spec/AddOffsetsToTxnResponse.json -/
def p_AddOffsetsToTxnResponse : MSpec where
  apiKey := 25
  typ := "response".toList
  name := "AddOffsetsToTxnResponse".toList
  valid := "0-3".toList
  flex := "3+".toList
  common := []
  fields :=
    (.cons { name := "ThrottleTimeMs".toList, typ := "int32".toList, versions := "0+".toList } .nil
    (.cons { name := "ErrorCode".toList, typ := "int16".toList, versions := "0+".toList } .nil
    .nil))

/-- assets/protocol_spec/AddPartitionsToTxnRequest.json -/
def p_AddPartitionsToTxnRequest : MSpec where
  apiKey := 24
  typ := "request".toList
  name := "AddPartitionsToTxnRequest".toList
  valid := "0-3".toList
  flex := "3+".toList
  common := []
  fields :=
    (.cons { name := "TransactionalId".toList, typ := "string".toList, versions := "0+".toList } .nil
    (.cons { name := "ProducerId".toList, typ := "int64".toList, versions := "0+".toList } .nil
    (.cons { name := "ProducerEpoch".toList, typ := "int16".toList, versions := "0+".toList } .nil
    (.cons { name := "Topics".toList, typ := "[]AddPartitionsToTxnTopic".toList, versions := "0+".toList }
      (.cons { name := "Name".toList, typ := "string".toList, versions := "0+".toList } .nil
      (.cons { name := "Partitions".toList, typ := "[]int32".toList, versions := "0+".toList } .nil
      .nil))
    .nil))))

/-- assets/protocol_spec/AddPartitionsToTxnResponse.json -/
def p_AddPartitionsToTxnResponse : MSpec where
  apiKey := 24
  typ := "response".toList
  name := "AddPartitionsToTxnResponse".toList
  valid := "0-3".toList
  flex := "3+".toList
  common := []
  fields :=
    (.cons { name := "ThrottleTimeMs".toList, typ := "int32".toList, versions := "0+".toList } .nil
    (.cons { name := "Results".toList, typ := "[]AddPartitionsToTxnTopicResult".toList, versions := "0+".toList }
      (.cons { name := "Name".toList, typ := "string".toList, versions := "0+".toList } .nil
      (.cons { name := "Results".toList, typ := "[]AddPartitionsToTxnPartitionResult".toList, versions := "0+".toList }
        (.cons { name := "PartitionIndex".toList, typ := "int32".toList, versions := "0+".toList } .nil
        (.cons { name := "ErrorCode".toList, typ := "int16".toList, versions := "0+".toList } .nil
        .nil))
      .nil))
    .nil))

/-- assets/protocol_spec/AllocateProducerIdsRequest.json -/
def p_AllocateProducerIdsRequest : MSpec where
  apiKey := 67
  typ := "request".toList
  name := "AllocateProducerIdsRequest".toList
  valid := "0".toList
  flex := "0+".toList
  common := []
  fields :=
    (.cons { name := "BrokerId".toList, typ := "int32".toList, versions := "0+".toList } .nil
    (.cons { name := "BrokerEpoch".toList, typ := "int64".toList, versions := "0+".toList, dflt := some (.str "-1".toList) } .nil
    .nil))

/-- assets/protocol_spec/AllocateProducerIdsResponse.json -/
def p_AllocateProducerIdsResponse : MSpec where
  apiKey := 67
  typ := "response".toList
  name := "AllocateProducerIdsResponse".toList
  valid := "0".toList
  flex := "0+".toList
  common := []
  fields :=
    (.cons { name := "ThrottleTimeMs".toList, typ := "int32".toList, versions := "0+".toList } .nil
    (.cons { name := "ErrorCode".toList, typ := "int16".toList, versions := "0+".toList } .nil
    (.cons { name := "ProducerIdStart".toList, typ := "int64".toList, versions := "0+".toList } .nil
    (.cons { name := "ProducerIdLen".toList, typ := "int32".toList, versions := "0+".toList } .nil
    .nil))))

/-- assets/protocol_spec/AlterClientQuotasRequest.json -/
def p_AlterClientQuotasRequest : MSpec where
  apiKey := 49
  typ := "request".toList
  name := "AlterClientQuotasRequest".toList
  valid := "0-1".toList
  flex := "1+".toList
  common := []
  fields :=
    (.cons { name := "Entries".toList, typ := "[]EntryData".toList, versions := "0+".toList }
      (.cons { name := "Entity".toList, typ := "[]EntityData".toList, versions := "0+".toList }
        (.cons { name := "EntityType".toList, typ := "string".toList, versions := "0+".toList } .nil
        (.cons { name := "EntityName".toList, typ := "string".toList, versions := "0+".toList, nullable := "0+".toList } .nil
        .nil))
      (.cons { name := "Ops".toList, typ := "[]OpData".toList, versions := "0+".toList }
        (.cons { name := "Key".toList, typ := "string".toList, versions := "0+".toList } .nil
        (.cons { name := "Value".toList, typ := "float64".toList, versions := "0+".toList } .nil
        (.cons { name := "Remove".toList, typ := "bool".toList, versions := "0+".toList } .nil
        .nil)))
      .nil))
    (.cons { name := "ValidateOnly".toList, typ := "bool".toList, versions := "0+".toList } .nil
    .nil))

/-- assets/protocol_spec/AlterClientQuotasResponse.json -/
def p_AlterClientQuotasResponse : MSpec where
  apiKey := 49
  typ := "response".toList
  name := "AlterClientQuotasResponse".toList
  valid := "0-1".toList
  flex := "1+".toList
  common := []
  fields :=
    (.cons { name := "ThrottleTimeMs".toList, typ := "int32".toList, versions := "0+".toList } .nil
    (.cons { name := "Entries".toList, typ := "[]EntryData".toList, versions := "0+".toList }
      (.cons { name := "ErrorCode".toList, typ := "int16".toList, versions := "0+".toList } .nil
      (.cons { name := "ErrorMessage".toList, typ := "string".toList, versions := "0+".toList, nullable := "0+".toList } .nil
      (.cons { name := "Entity".toList, typ := "[]EntityData".toList, versions := "0+".toList }
        (.cons { name := "EntityType".toList, typ := "string".toList, versions := "0+".toList } .nil
        (.cons { name := "EntityName".toList, typ := "string".toList, versions := "0+".toList, nullable := "0+".toList } .nil
        .nil))
      .nil)))
    .nil))

/-- assets/protocol_spec/AlterConfigsRequest.json -/
def p_AlterConfigsRequest : MSpec where
  apiKey := 33
  typ := "request".toList
  name := "AlterConfigsRequest".toList
  valid := "0-2".toList
  flex := "2+".toList
  common := []
  fields :=
    (.cons { name := "Resources".toList, typ := "[]AlterConfigsResource".toList, versions := "0+".toList }
      (.cons { name := "ResourceType".toList, typ := "int8".toList, versions := "0+".toList } .nil
      (.cons { name := "ResourceName".toList, typ := "string".toList, versions := "0+".toList } .nil
      (.cons { name := "Configs".toList, typ := "[]AlterableConfig".toList, versions := "0+".toList }
        (.cons { name := "Name".toList, typ := "string".toList, versions := "0+".toList } .nil
        (.cons { name := "Value".toList, typ := "string".toList, versions := "0+".toList, nullable := "0+".toList } .nil
        .nil))
      .nil)))
    (.cons { name := "ValidateOnly".toList, typ := "bool".toList, versions := "0+".toList } .nil
    .nil))

/-- assets/protocol_spec/AlterConfigsResponse.json -/
def p_AlterConfigsResponse : MSpec where
  apiKey := 33
  typ := "response".toList
  name := "AlterConfigsResponse".toList
  valid := "0-2".toList
  flex := "2+".toList
  common := []
  fields :=
    (.cons { name := "ThrottleTimeMs".toList, typ := "int32".toList, versions := "0+".toList } .nil
    (.cons { name := "Responses".toList, typ := "[]AlterConfigsResourceResponse".toList, versions := "0+".toList }
      (.cons { name := "ErrorCode".toList, typ := "int16".toList, versions := "0+".toList } .nil
      (.cons { name := "ErrorMessage".toList, typ := "string".toList, versions := "0+".toList, nullable := "0+".toList } .nil
      (.cons { name := "ResourceType".toList, typ := "int8".toList, versions := "0+".toList } .nil
      (.cons { name := "ResourceName".toList, typ := "string".toList, versions := "0+".toList } .nil
      .nil))))
    .nil))

/-- assets/protocol_spec/AlterPartitionReassignmentsRequest.json -/
def p_AlterPartitionReassignmentsRequest : MSpec where
  apiKey := 45
  typ := "request".toList
  name := "AlterPartitionReassignmentsRequest".toList
  valid := "0".toList
  flex := "0+".toList
  common := []
  fields :=
    (.cons { name := "TimeoutMs".toList, typ := "int32".toList, versions := "0+".toList, dflt := some (.str "60000".toList) } .nil
    (.cons { name := "Topics".toList, typ := "[]ReassignableTopic".toList, versions := "0+".toList }
      (.cons { name := "Name".toList, typ := "string".toList, versions := "0+".toList } .nil
      (.cons { name := "Partitions".toList, typ := "[]ReassignablePartition".toList, versions := "0+".toList }
        (.cons { name := "PartitionIndex".toList, typ := "int32".toList, versions := "0+".toList } .nil
        (.cons { name := "Replicas".toList, typ := "[]int32".toList, versions := "0+".toList, nullable := "0+".toList, dflt := some (.str "null".toList) } .nil
        .nil))
      .nil))
    .nil))

/-- assets/protocol_spec/AlterPartitionReassignmentsResponse.json -/
def p_AlterPartitionReassignmentsResponse : MSpec where
  apiKey := 45
  typ := "response".toList
  name := "AlterPartitionReassignmentsResponse".toList
  valid := "0".toList
  flex := "0+".toList
  common := []
  fields :=
    (.cons { name := "ThrottleTimeMs".toList, typ := "int32".toList, versions := "0+".toList } .nil
    (.cons { name := "ErrorCode".toList, typ := "int16".toList, versions := "0+".toList } .nil
    (.cons { name := "ErrorMessage".toList, typ := "string".toList, versions := "0+".toList, nullable := "0+".toList } .nil
    (.cons { name := "Responses".toList, typ := "[]ReassignableTopicResponse".toList, versions := "0+".toList }
      (.cons { name := "Name".toList, typ := "string".toList, versions := "0+".toList } .nil
      (.cons { name := "Partitions".toList, typ := "[]ReassignablePartitionResponse".toList, versions := "0+".toList }
        (.cons { name := "PartitionIndex".toList, typ := "int32".toList, versions := "0+".toList } .nil
        (.cons { name := "ErrorCode".toList, typ := "int16".toList, versions := "0+".toList } .nil
        (.cons { name := "ErrorMessage".toList, typ := "string".toList, versions := "0+".toList, nullable := "0+".toList } .nil
        .nil)))
      .nil))
    .nil))))

/-- assets/protocol_spec/AlterPartitionRequest.json -/
def p_AlterPartitionRequest : MSpec where
  apiKey := 56
  typ := "request".toList
  name := "AlterPartitionRequest".toList
  valid := "0-2".toList
  flex := "0+".toList
  common := []
  fields :=
    (.cons { name := "BrokerId".toList, typ := "int32".toList, versions := "0+".toList } .nil
    (.cons { name := "BrokerEpoch".toList, typ := "int64".toList, versions := "0+".toList, dflt := some (.str "-1".toList) } .nil
    (.cons { name := "Topics".toList, typ := "[]TopicData".toList, versions := "0+".toList }
      (.cons { name := "TopicName".toList, typ := "string".toList, versions := "0-1".toList, ignorable := true } .nil
      (.cons { name := "TopicId".toList, typ := "uuid".toList, versions := "2+".toList, ignorable := true } .nil
      (.cons { name := "Partitions".toList, typ := "[]PartitionData".toList, versions := "0+".toList }
        (.cons { name := "PartitionIndex".toList, typ := "int32".toList, versions := "0+".toList } .nil
        (.cons { name := "LeaderEpoch".toList, typ := "int32".toList, versions := "0+".toList } .nil
        (.cons { name := "NewIsr".toList, typ := "[]int32".toList, versions := "0+".toList } .nil
        (.cons { name := "LeaderRecoveryState".toList, typ := "int8".toList, versions := "1+".toList, dflt := some (.str "0".toList) } .nil
        (.cons { name := "PartitionEpoch".toList, typ := "int32".toList, versions := "0+".toList } .nil
        .nil)))))
      .nil)))
    .nil)))

/-- assets/protocol_spec/AlterPartitionResponse.json -/
def p_AlterPartitionResponse : MSpec where
  apiKey := 56
  typ := "response".toList
  name := "AlterPartitionResponse".toList
  valid := "0-2".toList
  flex := "0+".toList
  common := []
  fields :=
    (.cons { name := "ThrottleTimeMs".toList, typ := "int32".toList, versions := "0+".toList } .nil
    (.cons { name := "ErrorCode".toList, typ := "int16".toList, versions := "0+".toList } .nil
    (.cons { name := "Topics".toList, typ := "[]TopicData".toList, versions := "0+".toList }
      (.cons { name := "TopicName".toList, typ := "string".toList, versions := "0-1".toList, ignorable := true } .nil
      (.cons { name := "TopicId".toList, typ := "uuid".toList, versions := "2+".toList, ignorable := true } .nil
      (.cons { name := "Partitions".toList, typ := "[]PartitionData".toList, versions := "0+".toList }
        (.cons { name := "PartitionIndex".toList, typ := "int32".toList, versions := "0+".toList } .nil
        (.cons { name := "ErrorCode".toList, typ := "int16".toList, versions := "0+".toList } .nil
        (.cons { name := "LeaderId".toList, typ := "int32".toList, versions := "0+".toList } .nil
        (.cons { name := "LeaderEpoch".toList, typ := "int32".toList, versions := "0+".toList } .nil
        (.cons { name := "Isr".toList, typ := "[]int32".toList, versions := "0+".toList } .nil
        (.cons { name := "LeaderRecoveryState".toList, typ := "int8".toList, versions := "1+".toList, dflt := some (.str "0".toList), ignorable := true } .nil
        (.cons { name := "PartitionEpoch".toList, typ := "int32".toList, versions := "0+".toList } .nil
        .nil)))))))
      .nil)))
    .nil)))

/-- assets/protocol_spec/AlterReplicaLogDirsRequest.json -/
def p_AlterReplicaLogDirsRequest : MSpec where
  apiKey := 34
  typ := "request".toList
  name := "AlterReplicaLogDirsRequest".toList
  valid := "0-2".toList
  flex := "2+".toList
  common := []
  fields :=
    (.cons { name := "Dirs".toList, typ := "[]AlterReplicaLogDir".toList, versions := "0+".toList }
      (.cons { name := "Path".toList, typ := "string".toList, versions := "0+".toList } .nil
      (.cons { name := "Topics".toList, typ := "[]AlterReplicaLogDirTopic".toList, versions := "0+".toList }
        (.cons { name := "Name".toList, typ := "string".toList, versions := "0+".toList } .nil
        (.cons { name := "Partitions".toList, typ := "[]int32".toList, versions := "0+".toList } .nil
        .nil))
      .nil))
    .nil)

/-- assets/protocol_spec/AlterReplicaLogDirsResponse.json -/
def p_AlterReplicaLogDirsResponse : MSpec where
  apiKey := 34
  typ := "response".toList
  name := "AlterReplicaLogDirsResponse".toList
  valid := "0-2".toList
  flex := "2+".toList
  common := []
  fields :=
    (.cons { name := "ThrottleTimeMs".toList, typ := "int32".toList, versions := "0+".toList } .nil
    (.cons { name := "Results".toList, typ := "[]AlterReplicaLogDirTopicResult".toList, versions := "0+".toList }
      (.cons { name := "TopicName".toList, typ := "string".toList, versions := "0+".toList } .nil
      (.cons { name := "Partitions".toList, typ := "[]AlterReplicaLogDirPartitionResult".toList, versions := "0+".toList }
        (.cons { name := "PartitionIndex".toList, typ := "int32".toList, versions := "0+".toList } .nil
        (.cons { name := "ErrorCode".toList, typ := "int16".toList, versions := "0+".toList } .nil
        .nil))
      .nil))
    .nil))

/-- assets/protocol_spec/AlterUserScramCredentialsRequest.json -/
def p_AlterUserScramCredentialsRequest : MSpec where
  apiKey := 51
  typ := "request".toList
  name := "AlterUserScramCredentialsRequest".toList
  valid := "0".toList
  flex := "0+".toList
  common := []
  fields :=
    (.cons { name := "Deletions".toList, typ := "[]ScramCredentialDeletion".toList, versions := "0+".toList }
      (.cons { name := "Name".toList, typ := "string".toList, versions := "0+".toList } .nil
      (.cons { name := "Mechanism".toList, typ := "int8".toList, versions := "0+".toList } .nil
      .nil))
    (.cons { name := "Upsertions".toList, typ := "[]ScramCredentialUpsertion".toList, versions := "0+".toList }
      (.cons { name := "Name".toList, typ := "string".toList, versions := "0+".toList } .nil
      (.cons { name := "Mechanism".toList, typ := "int8".toList, versions := "0+".toList } .nil
      (.cons { name := "Iterations".toList, typ := "int32".toList, versions := "0+".toList } .nil
      (.cons { name := "Salt".toList, typ := "bytes".toList, versions := "0+".toList } .nil
      (.cons { name := "SaltedPassword".toList, typ := "bytes".toList, versions := "0+".toList } .nil
      .nil)))))
    .nil))

/-- assets/protocol_spec/AlterUserScramCredentialsResponse.json -/
def p_AlterUserScramCredentialsResponse : MSpec where
  apiKey := 51
  typ := "response".toList
  name := "AlterUserScramCredentialsResponse".toList
  valid := "0".toList
  flex := "0+".toList
  common := []
  fields :=
    (.cons { name := "ThrottleTimeMs".toList, typ := "int32".toList, versions := "0+".toList } .nil
    (.cons { name := "Results".toList, typ := "[]AlterUserScramCredentialsResult".toList, versions := "0+".toList }
      (.cons { name := "User".toList, typ := "string".toList, versions := "0+".toList } .nil
      (.cons { name := "ErrorCode".toList, typ := "int16".toList, versions := "0+".toList } .nil
      (.cons { name := "ErrorMessage".toList, typ := "string".toList, versions := "0+".toList, nullable := "0+".toList } .nil
      .nil)))
    .nil))

/-- assets/protocol_spec/ApiVersionsRequest.json -/
def p_ApiVersionsRequest : MSpec where
  apiKey := 18
  typ := "request".toList
  name := "ApiVersionsRequest".toList
  valid := "0-3".toList
  flex := "3+".toList
  common := []
  fields :=
    (.cons { name := "ClientSoftwareName".toList, typ := "string".toList, versions := "3+".toList, ignorable := true } .nil
    (.cons { name := "ClientSoftwareVersion".toList, typ := "string".toList, versions := "3+".toList, ignorable := true } .nil
    .nil))

/-- assets/protocol_spec/ApiVersionsResponse.json -/
def p_ApiVersionsResponse : MSpec where
  apiKey := 18
  typ := "response".toList
  name := "ApiVersionsResponse".toList
  valid := "0-3".toList
  flex := "3+".toList
  common := []
  fields :=
    (.cons { name := "ErrorCode".toList, typ := "int16".toList, versions := "0+".toList } .nil
    (.cons { name := "ApiKeys".toList, typ := "[]ApiVersion".toList, versions := "0+".toList }
      (.cons { name := "ApiKey".toList, typ := "int16".toList, versions := "0+".toList } .nil
      (.cons { name := "MinVersion".toList, typ := "int16".toList, versions := "0+".toList } .nil
      (.cons { name := "MaxVersion".toList, typ := "int16".toList, versions := "0+".toList } .nil
      .nil)))
    (.cons { name := "ThrottleTimeMs".toList, typ := "int32".toList, versions := "1+".toList, ignorable := true } .nil
    (.cons { name := "SupportedFeatures".toList, typ := "[]SupportedFeatureKey".toList, versions := "3+".toList, tagged := "3+".toList, ignorable := true, tag := some 0 }
      (.cons { name := "Name".toList, typ := "string".toList, versions := "3+".toList } .nil
      (.cons { name := "MinVersion".toList, typ := "int16".toList, versions := "3+".toList } .nil
      (.cons { name := "MaxVersion".toList, typ := "int16".toList, versions := "3+".toList } .nil
      .nil)))
    (.cons { name := "FinalizedFeaturesEpoch".toList, typ := "int64".toList, versions := "3+".toList, tagged := "3+".toList, dflt := some (.str "-1".toList), ignorable := true, tag := some 1 } .nil
    (.cons { name := "FinalizedFeatures".toList, typ := "[]FinalizedFeatureKey".toList, versions := "3+".toList, tagged := "3+".toList, ignorable := true, tag := some 2 }
      (.cons { name := "Name".toList, typ := "string".toList, versions := "3+".toList } .nil
      (.cons { name := "MaxVersionLevel".toList, typ := "int16".toList, versions := "3+".toList } .nil
      (.cons { name := "MinVersionLevel".toList, typ := "int16".toList, versions := "3+".toList } .nil
      .nil)))
    (.cons { name := "ZkMigrationReady".toList, typ := "bool".toList, versions := "3+".toList, tagged := "3+".toList, dflt := some (.str "false".toList), ignorable := true, tag := some 3 } .nil
    .nil)))))))

/-- assets/protocol_spec/BeginQuorumEpochRequest.json -/
def p_BeginQuorumEpochRequest : MSpec where
  apiKey := 53
  typ := "request".toList
  name := "BeginQuorumEpochRequest".toList
  valid := "0".toList
  flex := "none".toList
  common := []
  fields :=
    (.cons { name := "ClusterId".toList, typ := "string".toList, versions := "0+".toList, nullable := "0+".toList, dflt := some (.str "null".toList) } .nil
    (.cons { name := "Topics".toList, typ := "[]TopicData".toList, versions := "0+".toList }
      (.cons { name := "TopicName".toList, typ := "string".toList, versions := "0+".toList } .nil
      (.cons { name := "Partitions".toList, typ := "[]PartitionData".toList, versions := "0+".toList }
        (.cons { name := "PartitionIndex".toList, typ := "int32".toList, versions := "0+".toList } .nil
        (.cons { name := "LeaderId".toList, typ := "int32".toList, versions := "0+".toList } .nil
        (.cons { name := "LeaderEpoch".toList, typ := "int32".toList, versions := "0+".toList } .nil
        .nil)))
      .nil))
    .nil))

/-- assets/protocol_spec/BeginQuorumEpochResponse.json -/
def p_BeginQuorumEpochResponse : MSpec where
  apiKey := 53
  typ := "response".toList
  name := "BeginQuorumEpochResponse".toList
  valid := "0".toList
  flex := "none".toList
  common := []
  fields :=
    (.cons { name := "ErrorCode".toList, typ := "int16".toList, versions := "0+".toList } .nil
    (.cons { name := "Topics".toList, typ := "[]TopicData".toList, versions := "0+".toList }
      (.cons { name := "TopicName".toList, typ := "string".toList, versions := "0+".toList } .nil
      (.cons { name := "Partitions".toList, typ := "[]PartitionData".toList, versions := "0+".toList }
        (.cons { name := "PartitionIndex".toList, typ := "int32".toList, versions := "0+".toList } .nil
        (.cons { name := "ErrorCode".toList, typ := "int16".toList, versions := "0+".toList } .nil
        (.cons { name := "LeaderId".toList, typ := "int32".toList, versions := "0+".toList } .nil
        (.cons { name := "LeaderEpoch".toList, typ := "int32".toList, versions := "0+".toList } .nil
        .nil))))
      .nil))
    .nil))

/-- assets/protocol_spec/BrokerHeartbeatRequest.json -/
def p_BrokerHeartbeatRequest : MSpec where
  apiKey := 63
  typ := "request".toList
  name := "BrokerHeartbeatRequest".toList
  valid := "0".toList
  flex := "0+".toList
  common := []
  fields :=
    (.cons { name := "BrokerId".toList, typ := "int32".toList, versions := "0+".toList } .nil
    (.cons { name := "BrokerEpoch".toList, typ := "int64".toList, versions := "0+".toList, dflt := some (.str "-1".toList) } .nil
    (.cons { name := "CurrentMetadataOffset".toList, typ := "int64".toList, versions := "0+".toList } .nil
    (.cons { name := "WantFence".toList, typ := "bool".toList, versions := "0+".toList } .nil
    (.cons { name := "WantShutDown".toList, typ := "bool".toList, versions := "0+".toList } .nil
    .nil)))))

/-- assets/protocol_spec/BrokerHeartbeatResponse.json -/
def p_BrokerHeartbeatResponse : MSpec where
  apiKey := 63
  typ := "response".toList
  name := "BrokerHeartbeatResponse".toList
  valid := "0".toList
  flex := "0+".toList
  common := []
  fields :=
    (.cons { name := "ThrottleTimeMs".toList, typ := "int32".toList, versions := "0+".toList } .nil
    (.cons { name := "ErrorCode".toList, typ := "int16".toList, versions := "0+".toList } .nil
    (.cons { name := "IsCaughtUp".toList, typ := "bool".toList, versions := "0+".toList, dflt := some (.str "false".toList) } .nil
    (.cons { name := "IsFenced".toList, typ := "bool".toList, versions := "0+".toList, dflt := some (.str "true".toList) } .nil
    (.cons { name := "ShouldShutDown".toList, typ := "bool".toList, versions := "0+".toList } .nil
    .nil)))))

/-- assets/protocol_spec/BrokerRegistrationRequest.json -/
def p_BrokerRegistrationRequest : MSpec where
  apiKey := 62
  typ := "request".toList
  name := "BrokerRegistrationRequest".toList
  valid := "0-1".toList
  flex := "0+".toList
  common := []
  fields :=
    (.cons { name := "BrokerId".toList, typ := "int32".toList, versions := "0+".toList } .nil
    (.cons { name := "ClusterId".toList, typ := "string".toList, versions := "0+".toList } .nil
    (.cons { name := "IncarnationId".toList, typ := "uuid".toList, versions := "0+".toList } .nil
    (.cons { name := "Listeners".toList, typ := "[]Listener".toList, versions := "0+".toList }
      (.cons { name := "Name".toList, typ := "string".toList, versions := "0+".toList } .nil
      (.cons { name := "Host".toList, typ := "string".toList, versions := "0+".toList } .nil
      (.cons { name := "Port".toList, typ := "uint16".toList, versions := "0+".toList } .nil
      (.cons { name := "SecurityProtocol".toList, typ := "int16".toList, versions := "0+".toList } .nil
      .nil))))
    (.cons { name := "Features".toList, typ := "[]Feature".toList, versions := "0+".toList }
      (.cons { name := "Name".toList, typ := "string".toList, versions := "0+".toList } .nil
      (.cons { name := "MinSupportedVersion".toList, typ := "int16".toList, versions := "0+".toList } .nil
      (.cons { name := "MaxSupportedVersion".toList, typ := "int16".toList, versions := "0+".toList } .nil
      .nil)))
    (.cons { name := "Rack".toList, typ := "string".toList, versions := "0+".toList, nullable := "0+".toList } .nil
    (.cons { name := "IsMigratingZkBroker".toList, typ := "bool".toList, versions := "1+".toList, dflt := some (.str "false".toList) } .nil
    .nil)))))))

/-- assets/protocol_spec/BrokerRegistrationResponse.json -/
def p_BrokerRegistrationResponse : MSpec where
  apiKey := 62
  typ := "response".toList
  name := "BrokerRegistrationResponse".toList
  valid := "0-1".toList
  flex := "0+".toList
  common := []
  fields :=
    (.cons { name := "ThrottleTimeMs".toList, typ := "int32".toList, versions := "0+".toList } .nil
    (.cons { name := "ErrorCode".toList, typ := "int16".toList, versions := "0+".toList } .nil
    (.cons { name := "BrokerEpoch".toList, typ := "int64".toList, versions := "0+".toList, dflt := some (.str "-1".toList) } .nil
    .nil)))

/-- assets/protocol_spec/ControlledShutdownRequest.json -/
def p_ControlledShutdownRequest : MSpec where
  apiKey := 7
  typ := "request".toList
  name := "ControlledShutdownRequest".toList
  valid := "0-3".toList
  flex := "3+".toList
  common := []
  fields :=
    (.cons { name := "BrokerId".toList, typ := "int32".toList, versions := "0+".toList } .nil
    (.cons { name := "BrokerEpoch".toList, typ := "int64".toList, versions := "2+".toList, dflt := some (.str "-1".toList), ignorable := true } .nil
    .nil))

/-- assets/protocol_spec/ControlledShutdownResponse.json -/
def p_ControlledShutdownResponse : MSpec where
  apiKey := 7
  typ := "response".toList
  name := "ControlledShutdownResponse".toList
  valid := "0-3".toList
  flex := "3+".toList
  common := []
  fields :=
    (.cons { name := "ErrorCode".toList, typ := "int16".toList, versions := "0+".toList } .nil
    (.cons { name := "RemainingPartitions".toList, typ := "[]RemainingPartition".toList, versions := "0+".toList }
      (.cons { name := "TopicName".toList, typ := "string".toList, versions := "0+".toList } .nil
      (.cons { name := "PartitionIndex".toList, typ := "int32".toList, versions := "0+".toList } .nil
      .nil))
    .nil))

/-- assets/protocol_spec/CreateAclsRequest.json -/
def p_CreateAclsRequest : MSpec where
  apiKey := 30
  typ := "request".toList
  name := "CreateAclsRequest".toList
  valid := "0-3".toList
  flex := "2+".toList
  common := []
  fields :=
    (.cons { name := "Creations".toList, typ := "[]AclCreation".toList, versions := "0+".toList }
      (.cons { name := "ResourceType".toList, typ := "int8".toList, versions := "0+".toList } .nil
      (.cons { name := "ResourceName".toList, typ := "string".toList, versions := "0+".toList } .nil
      (.cons { name := "ResourcePatternType".toList, typ := "int8".toList, versions := "1+".toList, dflt := some (.str "3".toList) } .nil
      (.cons { name := "Principal".toList, typ := "string".toList, versions := "0+".toList } .nil
      (.cons { name := "Host".toList, typ := "string".toList, versions := "0+".toList } .nil
      (.cons { name := "Operation".toList, typ := "int8".toList, versions := "0+".toList } .nil
      (.cons { name := "PermissionType".toList, typ := "int8".toList, versions := "0+".toList } .nil
      .nil)))))))
    .nil)

/-- assets/protocol_spec/CreateAclsResponse.json -/
def p_CreateAclsResponse : MSpec where
  apiKey := 30
  typ := "response".toList
  name := "CreateAclsResponse".toList
  valid := "0-3".toList
  flex := "2+".toList
  common := []
  fields :=
    (.cons { name := "ThrottleTimeMs".toList, typ := "int32".toList, versions := "0+".toList } .nil
    (.cons { name := "Results".toList, typ := "[]AclCreationResult".toList, versions := "0+".toList }
      (.cons { name := "ErrorCode".toList, typ := "int16".toList, versions := "0+".toList } .nil
      (.cons { name := "ErrorMessage".toList, typ := "string".toList, versions := "0+".toList, nullable := "0+".toList } .nil
      .nil))
    .nil))

/-- assets/protocol_spec/CreateDelegationTokenRequest.json -/
def p_CreateDelegationTokenRequest : MSpec where
  apiKey := 38
  typ := "request".toList
  name := "CreateDelegationTokenRequest".toList
  valid := "0-3".toList
  flex := "2+".toList
  common := []
  fields :=
    (.cons { name := "OwnerPrincipalType".toList, typ := "string".toList, versions := "3+".toList, nullable := "3+".toList } .nil
    (.cons { name := "OwnerPrincipalName".toList, typ := "string".toList, versions := "3+".toList, nullable := "3+".toList } .nil
    (.cons { name := "Renewers".toList, typ := "[]CreatableRenewers".toList, versions := "0+".toList }
      (.cons { name := "PrincipalType".toList, typ := "string".toList, versions := "0+".toList } .nil
      (.cons { name := "PrincipalName".toList, typ := "string".toList, versions := "0+".toList } .nil
      .nil))
    (.cons { name := "MaxLifetimeMs".toList, typ := "int64".toList, versions := "0+".toList } .nil
    .nil))))

/-- assets/protocol_spec/CreateDelegationTokenResponse.json -/
def p_CreateDelegationTokenResponse : MSpec where
  apiKey := 38
  typ := "response".toList
  name := "CreateDelegationTokenResponse".toList
  valid := "0-3".toList
  flex := "2+".toList
  common := []
  fields :=
    (.cons { name := "ErrorCode".toList, typ := "int16".toList, versions := "0+".toList } .nil
    (.cons { name := "PrincipalType".toList, typ := "string".toList, versions := "0+".toList } .nil
    (.cons { name := "PrincipalName".toList, typ := "string".toList, versions := "0+".toList } .nil
    (.cons { name := "TokenRequesterPrincipalType".toList, typ := "string".toList, versions := "3+".toList } .nil
    (.cons { name := "TokenRequesterPrincipalName".toList, typ := "string".toList, versions := "3+".toList } .nil
    (.cons { name := "IssueTimestampMs".toList, typ := "int64".toList, versions := "0+".toList } .nil
    (.cons { name := "ExpiryTimestampMs".toList, typ := "int64".toList, versions := "0+".toList } .nil
    (.cons { name := "MaxTimestampMs".toList, typ := "int64".toList, versions := "0+".toList } .nil
    (.cons { name := "TokenId".toList, typ := "string".toList, versions := "0+".toList } .nil
    (.cons { name := "Hmac".toList, typ := "bytes".toList, versions := "0+".toList } .nil
    (.cons { name := "ThrottleTimeMs".toList, typ := "int32".toList, versions := "0+".toList } .nil
    .nil)))))))))))

/-- assets/protocol_spec/CreatePartitionsRequest.json -/
def p_CreatePartitionsRequest : MSpec where
  apiKey := 37
  typ := "request".toList
  name := "CreatePartitionsRequest".toList
  valid := "0-3".toList
  flex := "2+".toList
  common := []
  fields :=
    (.cons { name := "Topics".toList, typ := "[]CreatePartitionsTopic".toList, versions := "0+".toList }
      (.cons { name := "Name".toList, typ := "string".toList, versions := "0+".toList } .nil
      (.cons { name := "Count".toList, typ := "int32".toList, versions := "0+".toList } .nil
      (.cons { name := "Assignments".toList, typ := "[]CreatePartitionsAssignment".toList, versions := "0+".toList, nullable := "0+".toList }
        (.cons { name := "BrokerIds".toList, typ := "[]int32".toList, versions := "0+".toList } .nil
        .nil)
      .nil)))
    (.cons { name := "TimeoutMs".toList, typ := "int32".toList, versions := "0+".toList } .nil
    (.cons { name := "ValidateOnly".toList, typ := "bool".toList, versions := "0+".toList } .nil
    .nil)))

/-- assets/protocol_spec/CreatePartitionsResponse.json -/
def p_CreatePartitionsResponse : MSpec where
  apiKey := 37
  typ := "response".toList
  name := "CreatePartitionsResponse".toList
  valid := "0-3".toList
  flex := "2+".toList
  common := []
  fields :=
    (.cons { name := "ThrottleTimeMs".toList, typ := "int32".toList, versions := "0+".toList } .nil
    (.cons { name := "Results".toList, typ := "[]CreatePartitionsTopicResult".toList, versions := "0+".toList }
      (.cons { name := "Name".toList, typ := "string".toList, versions := "0+".toList } .nil
      (.cons { name := "ErrorCode".toList, typ := "int16".toList, versions := "0+".toList } .nil
      (.cons { name := "ErrorMessage".toList, typ := "string".toList, versions := "0+".toList, nullable := "0+".toList, dflt := some (.str "null".toList) } .nil
      .nil)))
    .nil))

/-- assets/protocol_spec/CreateTopicsRequest.json -/
def p_CreateTopicsRequest : MSpec where
  apiKey := 19
  typ := "request".toList
  name := "CreateTopicsRequest".toList
  valid := "0-7".toList
  flex := "5+".toList
  common := []
  fields :=
    (.cons { name := "Topics".toList, typ := "[]CreatableTopic".toList, versions := "0+".toList }
      (.cons { name := "Name".toList, typ := "string".toList, versions := "0+".toList } .nil
      (.cons { name := "NumPartitions".toList, typ := "int32".toList, versions := "0+".toList } .nil
      (.cons { name := "ReplicationFactor".toList, typ := "int16".toList, versions := "0+".toList } .nil
      (.cons { name := "Assignments".toList, typ := "[]CreatableReplicaAssignment".toList, versions := "0+".toList }
        (.cons { name := "PartitionIndex".toList, typ := "int32".toList, versions := "0+".toList } .nil
        (.cons { name := "BrokerIds".toList, typ := "[]int32".toList, versions := "0+".toList } .nil
        .nil))
      (.cons { name := "Configs".toList, typ := "[]CreateableTopicConfig".toList, versions := "0+".toList }
        (.cons { name := "Name".toList, typ := "string".toList, versions := "0+".toList } .nil
        (.cons { name := "Value".toList, typ := "string".toList, versions := "0+".toList, nullable := "0+".toList } .nil
        .nil))
      .nil)))))
    (.cons { name := "timeoutMs".toList, typ := "int32".toList, versions := "0+".toList, dflt := some (.str "60000".toList) } .nil
    (.cons { name := "validateOnly".toList, typ := "bool".toList, versions := "1+".toList, dflt := some (.str "false".toList) } .nil
    .nil)))

/-- assets/protocol_spec/CreateTopicsResponse.json -/
def p_CreateTopicsResponse : MSpec where
  apiKey := 19
  typ := "response".toList
  name := "CreateTopicsResponse".toList
  valid := "0-7".toList
  flex := "5+".toList
  common := []
  fields :=
    (.cons { name := "ThrottleTimeMs".toList, typ := "int32".toList, versions := "2+".toList, ignorable := true } .nil
    (.cons { name := "Topics".toList, typ := "[]CreatableTopicResult".toList, versions := "0+".toList }
      (.cons { name := "Name".toList, typ := "string".toList, versions := "0+".toList } .nil
      (.cons { name := "TopicId".toList, typ := "uuid".toList, versions := "7+".toList, ignorable := true } .nil
      (.cons { name := "ErrorCode".toList, typ := "int16".toList, versions := "0+".toList } .nil
      (.cons { name := "ErrorMessage".toList, typ := "string".toList, versions := "1+".toList, nullable := "0+".toList, ignorable := true } .nil
      (.cons { name := "TopicConfigErrorCode".toList, typ := "int16".toList, versions := "5+".toList, tagged := "5+".toList, ignorable := true, tag := some 0 } .nil
      (.cons { name := "NumPartitions".toList, typ := "int32".toList, versions := "5+".toList, dflt := some (.str "-1".toList), ignorable := true } .nil
      (.cons { name := "ReplicationFactor".toList, typ := "int16".toList, versions := "5+".toList, dflt := some (.str "-1".toList), ignorable := true } .nil
      (.cons { name := "Configs".toList, typ := "[]CreatableTopicConfigs".toList, versions := "5+".toList, nullable := "5+".toList, ignorable := true }
        (.cons { name := "Name".toList, typ := "string".toList, versions := "5+".toList } .nil
        (.cons { name := "Value".toList, typ := "string".toList, versions := "5+".toList, nullable := "5+".toList } .nil
        (.cons { name := "ReadOnly".toList, typ := "bool".toList, versions := "5+".toList } .nil
        (.cons { name := "ConfigSource".toList, typ := "int8".toList, versions := "5+".toList, dflt := some (.str "-1".toList), ignorable := true } .nil
        (.cons { name := "IsSensitive".toList, typ := "bool".toList, versions := "5+".toList } .nil
        .nil)))))
      .nil))))))))
    .nil))

/-- assets/protocol_spec/DeleteAclsRequest.json -/
def p_DeleteAclsRequest : MSpec where
  apiKey := 31
  typ := "request".toList
  name := "DeleteAclsRequest".toList
  valid := "0-3".toList
  flex := "2+".toList
  common := []
  fields :=
    (.cons { name := "Filters".toList, typ := "[]DeleteAclsFilter".toList, versions := "0+".toList }
      (.cons { name := "ResourceTypeFilter".toList, typ := "int8".toList, versions := "0+".toList } .nil
      (.cons { name := "ResourceNameFilter".toList, typ := "string".toList, versions := "0+".toList, nullable := "0+".toList } .nil
      (.cons { name := "PatternTypeFilter".toList, typ := "int8".toList, versions := "1+".toList, dflt := some (.str "3".toList) } .nil
      (.cons { name := "PrincipalFilter".toList, typ := "string".toList, versions := "0+".toList, nullable := "0+".toList } .nil
      (.cons { name := "HostFilter".toList, typ := "string".toList, versions := "0+".toList, nullable := "0+".toList } .nil
      (.cons { name := "Operation".toList, typ := "int8".toList, versions := "0+".toList } .nil
      (.cons { name := "PermissionType".toList, typ := "int8".toList, versions := "0+".toList } .nil
      .nil)))))))
    .nil)

/-- assets/protocol_spec/DeleteAclsResponse.json -/
def p_DeleteAclsResponse : MSpec where
  apiKey := 31
  typ := "response".toList
  name := "DeleteAclsResponse".toList
  valid := "0-3".toList
  flex := "2+".toList
  common := []
  fields :=
    (.cons { name := "ThrottleTimeMs".toList, typ := "int32".toList, versions := "0+".toList } .nil
    (.cons { name := "FilterResults".toList, typ := "[]DeleteAclsFilterResult".toList, versions := "0+".toList }
      (.cons { name := "ErrorCode".toList, typ := "int16".toList, versions := "0+".toList } .nil
      (.cons { name := "ErrorMessage".toList, typ := "string".toList, versions := "0+".toList, nullable := "0+".toList } .nil
      (.cons { name := "MatchingAcls".toList, typ := "[]DeleteAclsMatchingAcl".toList, versions := "0+".toList }
        (.cons { name := "ErrorCode".toList, typ := "int16".toList, versions := "0+".toList } .nil
        (.cons { name := "ErrorMessage".toList, typ := "string".toList, versions := "0+".toList, nullable := "0+".toList } .nil
        (.cons { name := "ResourceType".toList, typ := "int8".toList, versions := "0+".toList } .nil
        (.cons { name := "ResourceName".toList, typ := "string".toList, versions := "0+".toList } .nil
        (.cons { name := "PatternType".toList, typ := "int8".toList, versions := "1+".toList, dflt := some (.str "3".toList) } .nil
        (.cons { name := "Principal".toList, typ := "string".toList, versions := "0+".toList } .nil
        (.cons { name := "Host".toList, typ := "string".toList, versions := "0+".toList } .nil
        (.cons { name := "Operation".toList, typ := "int8".toList, versions := "0+".toList } .nil
        (.cons { name := "PermissionType".toList, typ := "int8".toList, versions := "0+".toList } .nil
        .nil)))))))))
      .nil)))
    .nil))

/-- assets/protocol_spec/DeleteGroupsRequest.json -/
def p_DeleteGroupsRequest : MSpec where
  apiKey := 42
  typ := "request".toList
  name := "DeleteGroupsRequest".toList
  valid := "0-2".toList
  flex := "2+".toList
  common := []
  fields :=
    (.cons { name := "GroupsNames".toList, typ := "[]string".toList, versions := "0+".toList } .nil
    .nil)

/-- assets/protocol_spec/DeleteGroupsResponse.json -/
def p_DeleteGroupsResponse : MSpec where
  apiKey := 42
  typ := "response".toList
  name := "DeleteGroupsResponse".toList
  valid := "0-2".toList
  flex := "2+".toList
  common := []
  fields :=
    (.cons { name := "ThrottleTimeMs".toList, typ := "int32".toList, versions := "0+".toList } .nil
    (.cons { name := "Results".toList, typ := "[]DeletableGroupResult".toList, versions := "0+".toList }
      (.cons { name := "GroupId".toList, typ := "string".toList, versions := "0+".toList } .nil
      (.cons { name := "ErrorCode".toList, typ := "int16".toList, versions := "0+".toList } .nil
      .nil))
    .nil))

/-- assets/protocol_spec/DeleteRecordsRequest.json -/
def p_DeleteRecordsRequest : MSpec where
  apiKey := 21
  typ := "request".toList
  name := "DeleteRecordsRequest".toList
  valid := "0-2".toList
  flex := "2+".toList
  common := []
  fields :=
    (.cons { name := "Topics".toList, typ := "[]DeleteRecordsTopic".toList, versions := "0+".toList }
      (.cons { name := "Name".toList, typ := "string".toList, versions := "0+".toList } .nil
      (.cons { name := "Partitions".toList, typ := "[]DeleteRecordsPartition".toList, versions := "0+".toList }
        (.cons { name := "PartitionIndex".toList, typ := "int32".toList, versions := "0+".toList } .nil
        (.cons { name := "Offset".toList, typ := "int64".toList, versions := "0+".toList } .nil
        .nil))
      .nil))
    (.cons { name := "TimeoutMs".toList, typ := "int32".toList, versions := "0+".toList } .nil
    .nil))

/-- assets/protocol_spec/DeleteRecordsResponse.json -/
def p_DeleteRecordsResponse : MSpec where
  apiKey := 21
  typ := "response".toList
  name := "DeleteRecordsResponse".toList
  valid := "0-2".toList
  flex := "2+".toList
  common := []
  fields :=
    (.cons { name := "ThrottleTimeMs".toList, typ := "int32".toList, versions := "0+".toList } .nil
    (.cons { name := "Topics".toList, typ := "[]DeleteRecordsTopicResult".toList, versions := "0+".toList }
      (.cons { name := "Name".toList, typ := "string".toList, versions := "0+".toList } .nil
      (.cons { name := "Partitions".toList, typ := "[]DeleteRecordsPartitionResult".toList, versions := "0+".toList }
        (.cons { name := "PartitionIndex".toList, typ := "int32".toList, versions := "0+".toList } .nil
        (.cons { name := "LowWatermark".toList, typ := "int64".toList, versions := "0+".toList } .nil
        (.cons { name := "ErrorCode".toList, typ := "int16".toList, versions := "0+".toList } .nil
        .nil)))
      .nil))
    .nil))

/-- assets/protocol_spec/DeleteTopicsRequest.json -/
def p_DeleteTopicsRequest : MSpec where
  apiKey := 20
  typ := "request".toList
  name := "DeleteTopicsRequest".toList
  valid := "0-6".toList
  flex := "4+".toList
  common := []
  fields :=
    (.cons { name := "Topics".toList, typ := "[]DeleteTopicState".toList, versions := "6+".toList }
      (.cons { name := "Name".toList, typ := "string".toList, versions := "6+".toList, nullable := "6+".toList, dflt := some (.str "null".toList) } .nil
      (.cons { name := "TopicId".toList, typ := "uuid".toList, versions := "6+".toList } .nil
      .nil))
    (.cons { name := "TopicNames".toList, typ := "[]string".toList, versions := "0-5".toList, ignorable := true } .nil
    (.cons { name := "TimeoutMs".toList, typ := "int32".toList, versions := "0+".toList } .nil
    .nil)))

/-- assets/protocol_spec/DeleteTopicsResponse.json -/
def p_DeleteTopicsResponse : MSpec where
  apiKey := 20
  typ := "response".toList
  name := "DeleteTopicsResponse".toList
  valid := "0-6".toList
  flex := "4+".toList
  common := []
  fields :=
    (.cons { name := "ThrottleTimeMs".toList, typ := "int32".toList, versions := "1+".toList, ignorable := true } .nil
    (.cons { name := "Responses".toList, typ := "[]DeletableTopicResult".toList, versions := "0+".toList }
      (.cons { name := "Name".toList, typ := "string".toList, versions := "0+".toList, nullable := "6+".toList } .nil
      (.cons { name := "TopicId".toList, typ := "uuid".toList, versions := "6+".toList, ignorable := true } .nil
      (.cons { name := "ErrorCode".toList, typ := "int16".toList, versions := "0+".toList } .nil
      (.cons { name := "ErrorMessage".toList, typ := "string".toList, versions := "5+".toList, nullable := "5+".toList, dflt := some (.str "null".toList), ignorable := true } .nil
      .nil))))
    .nil))

/-- assets/protocol_spec/DescribeAclsRequest.json -/
def p_DescribeAclsRequest : MSpec where
  apiKey := 29
  typ := "request".toList
  name := "DescribeAclsRequest".toList
  valid := "0-3".toList
  flex := "2+".toList
  common := []
  fields :=
    (.cons { name := "ResourceTypeFilter".toList, typ := "int8".toList, versions := "0+".toList } .nil
    (.cons { name := "ResourceNameFilter".toList, typ := "string".toList, versions := "0+".toList, nullable := "0+".toList } .nil
    (.cons { name := "PatternTypeFilter".toList, typ := "int8".toList, versions := "1+".toList, dflt := some (.str "3".toList) } .nil
    (.cons { name := "PrincipalFilter".toList, typ := "string".toList, versions := "0+".toList, nullable := "0+".toList } .nil
    (.cons { name := "HostFilter".toList, typ := "string".toList, versions := "0+".toList, nullable := "0+".toList } .nil
    (.cons { name := "Operation".toList, typ := "int8".toList, versions := "0+".toList } .nil
    (.cons { name := "PermissionType".toList, typ := "int8".toList, versions := "0+".toList } .nil
    .nil)))))))

/-- assets/protocol_spec/DescribeAclsResponse.json -/
def p_DescribeAclsResponse : MSpec where
  apiKey := 29
  typ := "response".toList
  name := "DescribeAclsResponse".toList
  valid := "0-3".toList
  flex := "2+".toList
  common := []
  fields :=
    (.cons { name := "ThrottleTimeMs".toList, typ := "int32".toList, versions := "0+".toList } .nil
    (.cons { name := "ErrorCode".toList, typ := "int16".toList, versions := "0+".toList } .nil
    (.cons { name := "ErrorMessage".toList, typ := "string".toList, versions := "0+".toList, nullable := "0+".toList } .nil
    (.cons { name := "Resources".toList, typ := "[]DescribeAclsResource".toList, versions := "0+".toList }
      (.cons { name := "ResourceType".toList, typ := "int8".toList, versions := "0+".toList } .nil
      (.cons { name := "ResourceName".toList, typ := "string".toList, versions := "0+".toList } .nil
      (.cons { name := "PatternType".toList, typ := "int8".toList, versions := "1+".toList, dflt := some (.str "3".toList) } .nil
      (.cons { name := "Acls".toList, typ := "[]AclDescription".toList, versions := "0+".toList }
        (.cons { name := "Principal".toList, typ := "string".toList, versions := "0+".toList } .nil
        (.cons { name := "Host".toList, typ := "string".toList, versions := "0+".toList } .nil
        (.cons { name := "Operation".toList, typ := "int8".toList, versions := "0+".toList } .nil
        (.cons { name := "PermissionType".toList, typ := "int8".toList, versions := "0+".toList } .nil
        .nil))))
      .nil))))
    .nil))))

/-- assets/protocol_spec/DescribeClientQuotasRequest.json -/
def p_DescribeClientQuotasRequest : MSpec where
  apiKey := 48
  typ := "request".toList
  name := "DescribeClientQuotasRequest".toList
  valid := "0-1".toList
  flex := "1+".toList
  common := []
  fields :=
    (.cons { name := "Components".toList, typ := "[]ComponentData".toList, versions := "0+".toList }
      (.cons { name := "EntityType".toList, typ := "string".toList, versions := "0+".toList } .nil
      (.cons { name := "MatchType".toList, typ := "int8".toList, versions := "0+".toList } .nil
      (.cons { name := "Match".toList, typ := "string".toList, versions := "0+".toList, nullable := "0+".toList } .nil
      .nil)))
    (.cons { name := "Strict".toList, typ := "bool".toList, versions := "0+".toList } .nil
    .nil))

/-- assets/protocol_spec/DescribeClientQuotasResponse.json -/
def p_DescribeClientQuotasResponse : MSpec where
  apiKey := 48
  typ := "response".toList
  name := "DescribeClientQuotasResponse".toList
  valid := "0-1".toList
  flex := "1+".toList
  common := []
  fields :=
    (.cons { name := "ThrottleTimeMs".toList, typ := "int32".toList, versions := "0+".toList } .nil
    (.cons { name := "ErrorCode".toList, typ := "int16".toList, versions := "0+".toList } .nil
    (.cons { name := "ErrorMessage".toList, typ := "string".toList, versions := "0+".toList, nullable := "0+".toList } .nil
    (.cons { name := "Entries".toList, typ := "[]EntryData".toList, versions := "0+".toList, nullable := "0+".toList }
      (.cons { name := "Entity".toList, typ := "[]EntityData".toList, versions := "0+".toList }
        (.cons { name := "EntityType".toList, typ := "string".toList, versions := "0+".toList } .nil
        (.cons { name := "EntityName".toList, typ := "string".toList, versions := "0+".toList, nullable := "0+".toList } .nil
        .nil))
      (.cons { name := "Values".toList, typ := "[]ValueData".toList, versions := "0+".toList }
        (.cons { name := "Key".toList, typ := "string".toList, versions := "0+".toList } .nil
        (.cons { name := "Value".toList, typ := "float64".toList, versions := "0+".toList } .nil
        .nil))
      .nil))
    .nil))))

/-- assets/protocol_spec/DescribeClusterRequest.json -/
def p_DescribeClusterRequest : MSpec where
  apiKey := 60
  typ := "request".toList
  name := "DescribeClusterRequest".toList
  valid := "0".toList
  flex := "0+".toList
  common := []
  fields :=
    (.cons { name := "IncludeClusterAuthorizedOperations".toList, typ := "bool".toList, versions := "0+".toList } .nil
    .nil)

/-- assets/protocol_spec/DescribeClusterResponse.json -/
def p_DescribeClusterResponse : MSpec where
  apiKey := 60
  typ := "response".toList
  name := "DescribeClusterResponse".toList
  valid := "0".toList
  flex := "0+".toList
  common := []
  fields :=
    (.cons { name := "ThrottleTimeMs".toList, typ := "int32".toList, versions := "0+".toList } .nil
    (.cons { name := "ErrorCode".toList, typ := "int16".toList, versions := "0+".toList } .nil
    (.cons { name := "ErrorMessage".toList, typ := "string".toList, versions := "0+".toList, nullable := "0+".toList, dflt := some (.str "null".toList) } .nil
    (.cons { name := "ClusterId".toList, typ := "string".toList, versions := "0+".toList } .nil
    (.cons { name := "ControllerId".toList, typ := "int32".toList, versions := "0+".toList, dflt := some (.str "-1".toList) } .nil
    (.cons { name := "Brokers".toList, typ := "[]DescribeClusterBroker".toList, versions := "0+".toList }
      (.cons { name := "BrokerId".toList, typ := "int32".toList, versions := "0+".toList } .nil
      (.cons { name := "Host".toList, typ := "string".toList, versions := "0+".toList } .nil
      (.cons { name := "Port".toList, typ := "int32".toList, versions := "0+".toList } .nil
      (.cons { name := "Rack".toList, typ := "string".toList, versions := "0+".toList, nullable := "0+".toList, dflt := some (.str "null".toList) } .nil
      .nil))))
    (.cons { name := "ClusterAuthorizedOperations".toList, typ := "int32".toList, versions := "0+".toList, dflt := some (.str "-2147483648".toList) } .nil
    .nil)))))))

/-- assets/protocol_spec/DescribeConfigsRequest.json -/
def p_DescribeConfigsRequest : MSpec where
  apiKey := 32
  typ := "request".toList
  name := "DescribeConfigsRequest".toList
  valid := "0-4".toList
  flex := "4+".toList
  common := []
  fields :=
    (.cons { name := "Resources".toList, typ := "[]DescribeConfigsResource".toList, versions := "0+".toList }
      (.cons { name := "ResourceType".toList, typ := "int8".toList, versions := "0+".toList } .nil
      (.cons { name := "ResourceName".toList, typ := "string".toList, versions := "0+".toList } .nil
      (.cons { name := "ConfigurationKeys".toList, typ := "[]string".toList, versions := "0+".toList, nullable := "0+".toList } .nil
      .nil)))
    (.cons { name := "IncludeSynonyms".toList, typ := "bool".toList, versions := "1+".toList, dflt := some (.str "false".toList) } .nil
    (.cons { name := "IncludeDocumentation".toList, typ := "bool".toList, versions := "3+".toList, dflt := some (.str "false".toList) } .nil
    .nil)))

/-- assets/protocol_spec/DescribeConfigsResponse.json -/
def p_DescribeConfigsResponse : MSpec where
  apiKey := 32
  typ := "response".toList
  name := "DescribeConfigsResponse".toList
  valid := "0-4".toList
  flex := "4+".toList
  common := []
  fields :=
    (.cons { name := "ThrottleTimeMs".toList, typ := "int32".toList, versions := "0+".toList } .nil
    (.cons { name := "Results".toList, typ := "[]DescribeConfigsResult".toList, versions := "0+".toList }
      (.cons { name := "ErrorCode".toList, typ := "int16".toList, versions := "0+".toList } .nil
      (.cons { name := "ErrorMessage".toList, typ := "string".toList, versions := "0+".toList, nullable := "0+".toList } .nil
      (.cons { name := "ResourceType".toList, typ := "int8".toList, versions := "0+".toList } .nil
      (.cons { name := "ResourceName".toList, typ := "string".toList, versions := "0+".toList } .nil
      (.cons { name := "Configs".toList, typ := "[]DescribeConfigsResourceResult".toList, versions := "0+".toList }
        (.cons { name := "Name".toList, typ := "string".toList, versions := "0+".toList } .nil
        (.cons { name := "Value".toList, typ := "string".toList, versions := "0+".toList, nullable := "0+".toList } .nil
        (.cons { name := "ReadOnly".toList, typ := "bool".toList, versions := "0+".toList } .nil
        (.cons { name := "IsDefault".toList, typ := "bool".toList, versions := "0".toList } .nil
        (.cons { name := "ConfigSource".toList, typ := "int8".toList, versions := "1+".toList, dflt := some (.str "-1".toList), ignorable := true } .nil
        (.cons { name := "IsSensitive".toList, typ := "bool".toList, versions := "0+".toList } .nil
        (.cons { name := "Synonyms".toList, typ := "[]DescribeConfigsSynonym".toList, versions := "1+".toList, ignorable := true }
          (.cons { name := "Name".toList, typ := "string".toList, versions := "1+".toList } .nil
          (.cons { name := "Value".toList, typ := "string".toList, versions := "1+".toList, nullable := "0+".toList } .nil
          (.cons { name := "Source".toList, typ := "int8".toList, versions := "1+".toList } .nil
          .nil)))
        (.cons { name := "ConfigType".toList, typ := "int8".toList, versions := "3+".toList, dflt := some (.str "0".toList), ignorable := true } .nil
        (.cons { name := "Documentation".toList, typ := "string".toList, versions := "3+".toList, nullable := "0+".toList, ignorable := true } .nil
        .nil)))))))))
      .nil)))))
    .nil))

/-- assets/protocol_spec/DescribeDelegationTokenRequest.json -/
def p_DescribeDelegationTokenRequest : MSpec where
  apiKey := 41
  typ := "request".toList
  name := "DescribeDelegationTokenRequest".toList
  valid := "0-3".toList
  flex := "2+".toList
  common := []
  fields :=
    (.cons { name := "Owners".toList, typ := "[]DescribeDelegationTokenOwner".toList, versions := "0+".toList, nullable := "0+".toList }
      (.cons { name := "PrincipalType".toList, typ := "string".toList, versions := "0+".toList } .nil
      (.cons { name := "PrincipalName".toList, typ := "string".toList, versions := "0+".toList } .nil
      .nil))
    .nil)

/-- assets/protocol_spec/DescribeDelegationTokenResponse.json -/
def p_DescribeDelegationTokenResponse : MSpec where
  apiKey := 41
  typ := "response".toList
  name := "DescribeDelegationTokenResponse".toList
  valid := "0-3".toList
  flex := "2+".toList
  common := []
  fields :=
    (.cons { name := "ErrorCode".toList, typ := "int16".toList, versions := "0+".toList } .nil
    (.cons { name := "Tokens".toList, typ := "[]DescribedDelegationToken".toList, versions := "0+".toList }
      (.cons { name := "PrincipalType".toList, typ := "string".toList, versions := "0+".toList } .nil
      (.cons { name := "PrincipalName".toList, typ := "string".toList, versions := "0+".toList } .nil
      (.cons { name := "TokenRequesterPrincipalType".toList, typ := "string".toList, versions := "3+".toList } .nil
      (.cons { name := "TokenRequesterPrincipalName".toList, typ := "string".toList, versions := "3+".toList } .nil
      (.cons { name := "IssueTimestamp".toList, typ := "int64".toList, versions := "0+".toList } .nil
      (.cons { name := "ExpiryTimestamp".toList, typ := "int64".toList, versions := "0+".toList } .nil
      (.cons { name := "MaxTimestamp".toList, typ := "int64".toList, versions := "0+".toList } .nil
      (.cons { name := "TokenId".toList, typ := "string".toList, versions := "0+".toList } .nil
      (.cons { name := "Hmac".toList, typ := "bytes".toList, versions := "0+".toList } .nil
      (.cons { name := "Renewers".toList, typ := "[]DescribedDelegationTokenRenewer".toList, versions := "0+".toList }
        (.cons { name := "PrincipalType".toList, typ := "string".toList, versions := "0+".toList } .nil
        (.cons { name := "PrincipalName".toList, typ := "string".toList, versions := "0+".toList } .nil
        .nil))
      .nil))))))))))
    (.cons { name := "ThrottleTimeMs".toList, typ := "int32".toList, versions := "0+".toList } .nil
    .nil)))

/-- assets/protocol_spec/DescribeGroupsRequest.json -/
def p_DescribeGroupsRequest : MSpec where
  apiKey := 15
  typ := "request".toList
  name := "DescribeGroupsRequest".toList
  valid := "0-5".toList
  flex := "5+".toList
  common := []
  fields :=
    (.cons { name := "Groups".toList, typ := "[]string".toList, versions := "0+".toList } .nil
    (.cons { name := "IncludeAuthorizedOperations".toList, typ := "bool".toList, versions := "3+".toList } .nil
    .nil))

/-- assets/protocol_spec/DescribeGroupsResponse.json -/
def p_DescribeGroupsResponse : MSpec where
  apiKey := 15
  typ := "response".toList
  name := "DescribeGroupsResponse".toList
  valid := "0-5".toList
  flex := "5+".toList
  common := []
  fields :=
    (.cons { name := "ThrottleTimeMs".toList, typ := "int32".toList, versions := "1+".toList, ignorable := true } .nil
    (.cons { name := "Groups".toList, typ := "[]DescribedGroup".toList, versions := "0+".toList }
      (.cons { name := "ErrorCode".toList, typ := "int16".toList, versions := "0+".toList } .nil
      (.cons { name := "GroupId".toList, typ := "string".toList, versions := "0+".toList } .nil
      (.cons { name := "GroupState".toList, typ := "string".toList, versions := "0+".toList } .nil
      (.cons { name := "ProtocolType".toList, typ := "string".toList, versions := "0+".toList } .nil
      (.cons { name := "ProtocolData".toList, typ := "string".toList, versions := "0+".toList } .nil
      (.cons { name := "Members".toList, typ := "[]DescribedGroupMember".toList, versions := "0+".toList }
        (.cons { name := "MemberId".toList, typ := "string".toList, versions := "0+".toList } .nil
        (.cons { name := "GroupInstanceId".toList, typ := "string".toList, versions := "4+".toList, nullable := "4+".toList, dflt := some (.str "null".toList), ignorable := true } .nil
        (.cons { name := "ClientId".toList, typ := "string".toList, versions := "0+".toList } .nil
        (.cons { name := "ClientHost".toList, typ := "string".toList, versions := "0+".toList } .nil
        (.cons { name := "MemberMetadata".toList, typ := "bytes".toList, versions := "0+".toList } .nil
        (.cons { name := "MemberAssignment".toList, typ := "bytes".toList, versions := "0+".toList } .nil
        .nil))))))
      (.cons { name := "AuthorizedOperations".toList, typ := "int32".toList, versions := "3+".toList, dflt := some (.str "-2147483648".toList) } .nil
      .nil)))))))
    .nil))

/-- assets/protocol_spec/DescribeLogDirsRequest.json -/
def p_DescribeLogDirsRequest : MSpec where
  apiKey := 35
  typ := "request".toList
  name := "DescribeLogDirsRequest".toList
  valid := "0-4".toList
  flex := "2+".toList
  common := []
  fields :=
    (.cons { name := "Topics".toList, typ := "[]DescribableLogDirTopic".toList, versions := "0+".toList, nullable := "0+".toList }
      (.cons { name := "Topic".toList, typ := "string".toList, versions := "0+".toList } .nil
      (.cons { name := "Partitions".toList, typ := "[]int32".toList, versions := "0+".toList } .nil
      .nil))
    .nil)

/-- assets/protocol_spec/DescribeLogDirsResponse.json -/
def p_DescribeLogDirsResponse : MSpec where
  apiKey := 35
  typ := "response".toList
  name := "DescribeLogDirsResponse".toList
  valid := "0-4".toList
  flex := "2+".toList
  common := []
  fields :=
    (.cons { name := "ThrottleTimeMs".toList, typ := "int32".toList, versions := "0+".toList } .nil
    (.cons { name := "ErrorCode".toList, typ := "int16".toList, versions := "3+".toList, ignorable := true } .nil
    (.cons { name := "Results".toList, typ := "[]DescribeLogDirsResult".toList, versions := "0+".toList }
      (.cons { name := "ErrorCode".toList, typ := "int16".toList, versions := "0+".toList } .nil
      (.cons { name := "LogDir".toList, typ := "string".toList, versions := "0+".toList } .nil
      (.cons { name := "Topics".toList, typ := "[]DescribeLogDirsTopic".toList, versions := "0+".toList }
        (.cons { name := "Name".toList, typ := "string".toList, versions := "0+".toList } .nil
        (.cons { name := "Partitions".toList, typ := "[]DescribeLogDirsPartition".toList, versions := "0+".toList }
          (.cons { name := "PartitionIndex".toList, typ := "int32".toList, versions := "0+".toList } .nil
          (.cons { name := "PartitionSize".toList, typ := "int64".toList, versions := "0+".toList } .nil
          (.cons { name := "OffsetLag".toList, typ := "int64".toList, versions := "0+".toList } .nil
          (.cons { name := "IsFutureKey".toList, typ := "bool".toList, versions := "0+".toList } .nil
          .nil))))
        .nil))
      (.cons { name := "TotalBytes".toList, typ := "int64".toList, versions := "4+".toList, dflt := some (.str "-1".toList), ignorable := true } .nil
      (.cons { name := "UsableBytes".toList, typ := "int64".toList, versions := "4+".toList, dflt := some (.str "-1".toList), ignorable := true } .nil
      .nil)))))
    .nil)))

/-- assets/protocol_spec/DescribeProducersRequest.json -/
def p_DescribeProducersRequest : MSpec where
  apiKey := 61
  typ := "request".toList
  name := "DescribeProducersRequest".toList
  valid := "0".toList
  flex := "0+".toList
  common := []
  fields :=
    (.cons { name := "Topics".toList, typ := "[]TopicRequest".toList, versions := "0+".toList }
      (.cons { name := "Name".toList, typ := "string".toList, versions := "0+".toList } .nil
      (.cons { name := "PartitionIndexes".toList, typ := "[]int32".toList, versions := "0+".toList } .nil
      .nil))
    .nil)

/-- assets/protocol_spec/DescribeProducersResponse.json -/
def p_DescribeProducersResponse : MSpec where
  apiKey := 61
  typ := "response".toList
  name := "DescribeProducersResponse".toList
  valid := "0".toList
  flex := "0+".toList
  common := []
  fields :=
    (.cons { name := "ThrottleTimeMs".toList, typ := "int32".toList, versions := "0+".toList } .nil
    (.cons { name := "Topics".toList, typ := "[]TopicResponse".toList, versions := "0+".toList }
      (.cons { name := "Name".toList, typ := "string".toList, versions := "0+".toList } .nil
      (.cons { name := "Partitions".toList, typ := "[]PartitionResponse".toList, versions := "0+".toList }
        (.cons { name := "PartitionIndex".toList, typ := "int32".toList, versions := "0+".toList } .nil
        (.cons { name := "ErrorCode".toList, typ := "int16".toList, versions := "0+".toList } .nil
        (.cons { name := "ErrorMessage".toList, typ := "string".toList, versions := "0+".toList, nullable := "0+".toList, dflt := some (.str "null".toList) } .nil
        (.cons { name := "ActiveProducers".toList, typ := "[]ProducerState".toList, versions := "0+".toList }
          (.cons { name := "ProducerId".toList, typ := "int64".toList, versions := "0+".toList } .nil
          (.cons { name := "ProducerEpoch".toList, typ := "int32".toList, versions := "0+".toList } .nil
          (.cons { name := "LastSequence".toList, typ := "int32".toList, versions := "0+".toList, dflt := some (.str "-1".toList) } .nil
          (.cons { name := "LastTimestamp".toList, typ := "int64".toList, versions := "0+".toList, dflt := some (.str "-1".toList) } .nil
          (.cons { name := "CoordinatorEpoch".toList, typ := "int32".toList, versions := "0+".toList } .nil
          (.cons { name := "CurrentTxnStartOffset".toList, typ := "int64".toList, versions := "0+".toList, dflt := some (.str "-1".toList) } .nil
          .nil))))))
        .nil))))
      .nil))
    .nil))

/-- assets/protocol_spec/DescribeQuorumRequest.json -/
def p_DescribeQuorumRequest : MSpec where
  apiKey := 55
  typ := "request".toList
  name := "DescribeQuorumRequest".toList
  valid := "0-1".toList
  flex := "0+".toList
  common := []
  fields :=
    (.cons { name := "Topics".toList, typ := "[]TopicData".toList, versions := "0+".toList }
      (.cons { name := "TopicName".toList, typ := "string".toList, versions := "0+".toList } .nil
      (.cons { name := "Partitions".toList, typ := "[]PartitionData".toList, versions := "0+".toList }
        (.cons { name := "PartitionIndex".toList, typ := "int32".toList, versions := "0+".toList } .nil
        .nil)
      .nil))
    .nil)

/-- assets/protocol_spec/DescribeQuorumResponse.json -/
def p_DescribeQuorumResponse : MSpec where
  apiKey := 55
  typ := "response".toList
  name := "DescribeQuorumResponse".toList
  valid := "0-1".toList
  flex := "0+".toList
  common := [("ReplicaState".toList,
    (.cons { name := "ReplicaId".toList, typ := "int32".toList, versions := "0+".toList } .nil
    (.cons { name := "LogEndOffset".toList, typ := "int64".toList, versions := "0+".toList } .nil
    (.cons { name := "LastFetchTimestamp".toList, typ := "int64".toList, versions := "1+".toList, dflt := some (.num (-1)), ignorable := true } .nil
    (.cons { name := "LastCaughtUpTimestamp".toList, typ := "int64".toList, versions := "1+".toList, dflt := some (.num (-1)), ignorable := true } .nil
    .nil)))))]
  fields :=
    (.cons { name := "ErrorCode".toList, typ := "int16".toList, versions := "0+".toList } .nil
    (.cons { name := "Topics".toList, typ := "[]TopicData".toList, versions := "0+".toList }
      (.cons { name := "TopicName".toList, typ := "string".toList, versions := "0+".toList } .nil
      (.cons { name := "Partitions".toList, typ := "[]PartitionData".toList, versions := "0+".toList }
        (.cons { name := "PartitionIndex".toList, typ := "int32".toList, versions := "0+".toList } .nil
        (.cons { name := "ErrorCode".toList, typ := "int16".toList, versions := "0+".toList } .nil
        (.cons { name := "LeaderId".toList, typ := "int32".toList, versions := "0+".toList } .nil
        (.cons { name := "LeaderEpoch".toList, typ := "int32".toList, versions := "0+".toList } .nil
        (.cons { name := "HighWatermark".toList, typ := "int64".toList, versions := "0+".toList } .nil
        (.cons { name := "CurrentVoters".toList, typ := "[]ReplicaState".toList, versions := "0+".toList } .nil
        (.cons { name := "Observers".toList, typ := "[]ReplicaState".toList, versions := "0+".toList } .nil
        .nil)))))))
      .nil))
    .nil))

/-- assets/protocol_spec/DescribeTransactionsRequest.json -/
def p_DescribeTransactionsRequest : MSpec where
  apiKey := 65
  typ := "request".toList
  name := "DescribeTransactionsRequest".toList
  valid := "0".toList
  flex := "0+".toList
  common := []
  fields :=
    (.cons { name := "TransactionalIds".toList, typ := "[]string".toList, versions := "0+".toList } .nil
    .nil)

/-- assets/protocol_spec/DescribeTransactionsResponse.json -/
def p_DescribeTransactionsResponse : MSpec where
  apiKey := 65
  typ := "response".toList
  name := "DescribeTransactionsResponse".toList
  valid := "0".toList
  flex := "0+".toList
  common := []
  fields :=
    (.cons { name := "ThrottleTimeMs".toList, typ := "int32".toList, versions := "0+".toList } .nil
    (.cons { name := "TransactionStates".toList, typ := "[]TransactionState".toList, versions := "0+".toList }
      (.cons { name := "ErrorCode".toList, typ := "int16".toList, versions := "0+".toList } .nil
      (.cons { name := "TransactionalId".toList, typ := "string".toList, versions := "0+".toList } .nil
      (.cons { name := "TransactionState".toList, typ := "string".toList, versions := "0+".toList } .nil
      (.cons { name := "TransactionTimeoutMs".toList, typ := "int32".toList, versions := "0+".toList } .nil
      (.cons { name := "TransactionStartTimeMs".toList, typ := "int64".toList, versions := "0+".toList } .nil
      (.cons { name := "ProducerId".toList, typ := "int64".toList, versions := "0+".toList } .nil
      (.cons { name := "ProducerEpoch".toList, typ := "int16".toList, versions := "0+".toList } .nil
      (.cons { name := "Topics".toList, typ := "[]TopicData".toList, versions := "0+".toList }
        (.cons { name := "Topic".toList, typ := "string".toList, versions := "0+".toList } .nil
        (.cons { name := "Partitions".toList, typ := "[]int32".toList, versions := "0+".toList } .nil
        .nil))
      .nil))))))))
    .nil))

/-- assets/protocol_spec/DescribeUserScramCredentialsRequest.json -/
def p_DescribeUserScramCredentialsRequest : MSpec where
  apiKey := 50
  typ := "request".toList
  name := "DescribeUserScramCredentialsRequest".toList
  valid := "0".toList
  flex := "0+".toList
  common := []
  fields :=
    (.cons { name := "Users".toList, typ := "[]UserName".toList, versions := "0+".toList, nullable := "0+".toList }
      (.cons { name := "Name".toList, typ := "string".toList, versions := "0+".toList } .nil
      .nil)
    .nil)

/-- assets/protocol_spec/DescribeUserScramCredentialsResponse.json -/
def p_DescribeUserScramCredentialsResponse : MSpec where
  apiKey := 50
  typ := "response".toList
  name := "DescribeUserScramCredentialsResponse".toList
  valid := "0".toList
  flex := "0+".toList
  common := []
  fields :=
    (.cons { name := "ThrottleTimeMs".toList, typ := "int32".toList, versions := "0+".toList } .nil
    (.cons { name := "ErrorCode".toList, typ := "int16".toList, versions := "0+".toList } .nil
    (.cons { name := "ErrorMessage".toList, typ := "string".toList, versions := "0+".toList, nullable := "0+".toList } .nil
    (.cons { name := "Results".toList, typ := "[]DescribeUserScramCredentialsResult".toList, versions := "0+".toList }
      (.cons { name := "User".toList, typ := "string".toList, versions := "0+".toList } .nil
      (.cons { name := "ErrorCode".toList, typ := "int16".toList, versions := "0+".toList } .nil
      (.cons { name := "ErrorMessage".toList, typ := "string".toList, versions := "0+".toList, nullable := "0+".toList } .nil
      (.cons { name := "CredentialInfos".toList, typ := "[]CredentialInfo".toList, versions := "0+".toList }
        (.cons { name := "Mechanism".toList, typ := "int8".toList, versions := "0+".toList } .nil
        (.cons { name := "Iterations".toList, typ := "int32".toList, versions := "0+".toList } .nil
        .nil))
      .nil))))
    .nil))))

/-- assets/protocol_spec/ElectLeadersRequest.json -/
def p_ElectLeadersRequest : MSpec where
  apiKey := 43
  typ := "request".toList
  name := "ElectLeadersRequest".toList
  valid := "0-2".toList
  flex := "2+".toList
  common := []
  fields :=
    (.cons { name := "ElectionType".toList, typ := "int8".toList, versions := "1+".toList } .nil
    (.cons { name := "TopicPartitions".toList, typ := "[]TopicPartitions".toList, versions := "0+".toList, nullable := "0+".toList }
      (.cons { name := "Topic".toList, typ := "string".toList, versions := "0+".toList } .nil
      (.cons { name := "Partitions".toList, typ := "[]int32".toList, versions := "0+".toList } .nil
      .nil))
    (.cons { name := "TimeoutMs".toList, typ := "int32".toList, versions := "0+".toList, dflt := some (.str "60000".toList) } .nil
    .nil)))

/-- assets/protocol_spec/ElectLeadersResponse.json -/
def p_ElectLeadersResponse : MSpec where
  apiKey := 43
  typ := "response".toList
  name := "ElectLeadersResponse".toList
  valid := "0-2".toList
  flex := "2+".toList
  common := []
  fields :=
    (.cons { name := "ThrottleTimeMs".toList, typ := "int32".toList, versions := "0+".toList } .nil
    (.cons { name := "ErrorCode".toList, typ := "int16".toList, versions := "1+".toList } .nil
    (.cons { name := "ReplicaElectionResults".toList, typ := "[]ReplicaElectionResult".toList, versions := "0+".toList }
      (.cons { name := "Topic".toList, typ := "string".toList, versions := "0+".toList } .nil
      (.cons { name := "PartitionResult".toList, typ := "[]PartitionResult".toList, versions := "0+".toList }
        (.cons { name := "PartitionId".toList, typ := "int32".toList, versions := "0+".toList } .nil
        (.cons { name := "ErrorCode".toList, typ := "int16".toList, versions := "0+".toList } .nil
        (.cons { name := "ErrorMessage".toList, typ := "string".toList, versions := "0+".toList, nullable := "0+".toList } .nil
        .nil)))
      .nil))
    .nil)))

/-- assets/protocol_spec/EndQuorumEpochRequest.json -/
def p_EndQuorumEpochRequest : MSpec where
  apiKey := 54
  typ := "request".toList
  name := "EndQuorumEpochRequest".toList
  valid := "0".toList
  flex := "none".toList
  common := []
  fields :=
    (.cons { name := "ClusterId".toList, typ := "string".toList, versions := "0+".toList, nullable := "0+".toList, dflt := some (.str "null".toList) } .nil
    (.cons { name := "Topics".toList, typ := "[]TopicData".toList, versions := "0+".toList }
      (.cons { name := "TopicName".toList, typ := "string".toList, versions := "0+".toList } .nil
      (.cons { name := "Partitions".toList, typ := "[]PartitionData".toList, versions := "0+".toList }
        (.cons { name := "PartitionIndex".toList, typ := "int32".toList, versions := "0+".toList } .nil
        (.cons { name := "LeaderId".toList, typ := "int32".toList, versions := "0+".toList } .nil
        (.cons { name := "LeaderEpoch".toList, typ := "int32".toList, versions := "0+".toList } .nil
        (.cons { name := "PreferredSuccessors".toList, typ := "[]int32".toList, versions := "0+".toList } .nil
        .nil))))
      .nil))
    .nil))

/-- assets/protocol_spec/EndQuorumEpochResponse.json -/
def p_EndQuorumEpochResponse : MSpec where
  apiKey := 54
  typ := "response".toList
  name := "EndQuorumEpochResponse".toList
  valid := "0".toList
  flex := "none".toList
  common := []
  fields :=
    (.cons { name := "ErrorCode".toList, typ := "int16".toList, versions := "0+".toList } .nil
    (.cons { name := "Topics".toList, typ := "[]TopicData".toList, versions := "0+".toList }
      (.cons { name := "TopicName".toList, typ := "string".toList, versions := "0+".toList } .nil
      (.cons { name := "Partitions".toList, typ := "[]PartitionData".toList, versions := "0+".toList }
        (.cons { name := "PartitionIndex".toList, typ := "int32".toList, versions := "0+".toList } .nil
        (.cons { name := "ErrorCode".toList, typ := "int16".toList, versions := "0+".toList } .nil
        (.cons { name := "LeaderId".toList, typ := "int32".toList, versions := "0+".toList } .nil
        (.cons { name := "LeaderEpoch".toList, typ := "int32".toList, versions := "0+".toList } .nil
        .nil))))
      .nil))
    .nil))

/-- assets/protocol_spec/EndTxnRequest.json -/
def p_EndTxnRequest : MSpec where
  apiKey := 26
  typ := "request".toList
  name := "EndTxnRequest".toList
  valid := "0-3".toList
  flex := "3+".toList
  common := []
  fields :=
    (.cons { name := "TransactionalId".toList, typ := "string".toList, versions := "0+".toList } .nil
    (.cons { name := "ProducerId".toList, typ := "int64".toList, versions := "0+".toList } .nil
    (.cons { name := "ProducerEpoch".toList, typ := "int16".toList, versions := "0+".toList } .nil
    (.cons { name := "Committed".toList, typ := "bool".toList, versions := "0+".toList } .nil
    .nil))))

/-- assets/protocol_spec/EndTxnResponse.json -/
def p_EndTxnResponse : MSpec where
  apiKey := 26
  typ := "response".toList
  name := "EndTxnResponse".toList
  valid := "0-3".toList
  flex := "3+".toList
  common := []
  fields :=
    (.cons { name := "ThrottleTimeMs".toList, typ := "int32".toList, versions := "0+".toList } .nil
    (.cons { name := "ErrorCode".toList, typ := "int16".toList, versions := "0+".toList } .nil
    .nil))

/-- assets/protocol_spec/EnvelopeRequest.json -/
def p_EnvelopeRequest : MSpec where
  apiKey := 58
  typ := "request".toList
  name := "EnvelopeRequest".toList
  valid := "0".toList
  flex := "0+".toList
  common := []
  fields :=
    (.cons { name := "RequestData".toList, typ := "bytes".toList, versions := "0+".toList } .nil
    (.cons { name := "RequestPrincipal".toList, typ := "bytes".toList, versions := "0+".toList, nullable := "0+".toList } .nil
    (.cons { name := "ClientHostAddress".toList, typ := "bytes".toList, versions := "0+".toList } .nil
    .nil)))

/-- assets/protocol_spec/EnvelopeResponse.json -/
def p_EnvelopeResponse : MSpec where
  apiKey := 58
  typ := "response".toList
  name := "EnvelopeResponse".toList
  valid := "0".toList
  flex := "0+".toList
  common := []
  fields :=
    (.cons { name := "ResponseData".toList, typ := "bytes".toList, versions := "0+".toList, nullable := "0+".toList, dflt := some (.str "null".toList) } .nil
    (.cons { name := "ErrorCode".toList, typ := "int16".toList, versions := "0+".toList } .nil
    .nil))

/-- assets/protocol_spec/ExpireDelegationTokenRequest.json -/
def p_ExpireDelegationTokenRequest : MSpec where
  apiKey := 40
  typ := "request".toList
  name := "ExpireDelegationTokenRequest".toList
  valid := "0-2".toList
  flex := "2+".toList
  common := []
  fields :=
    (.cons { name := "Hmac".toList, typ := "bytes".toList, versions := "0+".toList } .nil
    (.cons { name := "ExpiryTimePeriodMs".toList, typ := "int64".toList, versions := "0+".toList } .nil
    .nil))

/-- assets/protocol_spec/ExpireDelegationTokenResponse.json -/
def p_ExpireDelegationTokenResponse : MSpec where
  apiKey := 40
  typ := "response".toList
  name := "ExpireDelegationTokenResponse".toList
  valid := "0-2".toList
  flex := "2+".toList
  common := []
  fields :=
    (.cons { name := "ErrorCode".toList, typ := "int16".toList, versions := "0+".toList } .nil
    (.cons { name := "ExpiryTimestampMs".toList, typ := "int64".toList, versions := "0+".toList } .nil
    (.cons { name := "ThrottleTimeMs".toList, typ := "int32".toList, versions := "0+".toList } .nil
    .nil)))

/-- assets/protocol_spec/FetchRequest.json -/
def p_FetchRequest : MSpec where
  apiKey := 1
  typ := "request".toList
  name := "FetchRequest".toList
  valid := "0-13".toList
  flex := "12+".toList
  common := []
  fields :=
    (.cons { name := "ClusterId".toList, typ := "string".toList, versions := "12+".toList, nullable := "12+".toList, tagged := "12+".toList, dflt := some (.str "null".toList), ignorable := true, tag := some 0 } .nil
    (.cons { name := "ReplicaId".toList, typ := "int32".toList, versions := "0+".toList } .nil
    (.cons { name := "MaxWaitMs".toList, typ := "int32".toList, versions := "0+".toList } .nil
    (.cons { name := "MinBytes".toList, typ := "int32".toList, versions := "0+".toList } .nil
    (.cons { name := "MaxBytes".toList, typ := "int32".toList, versions := "3+".toList, dflt := some (.str "0x7fffffff".toList), ignorable := true } .nil
    (.cons { name := "IsolationLevel".toList, typ := "int8".toList, versions := "4+".toList, dflt := some (.str "0".toList), ignorable := true } .nil
    (.cons { name := "SessionId".toList, typ := "int32".toList, versions := "7+".toList, dflt := some (.str "0".toList), ignorable := true } .nil
    (.cons { name := "SessionEpoch".toList, typ := "int32".toList, versions := "7+".toList, dflt := some (.str "-1".toList), ignorable := true } .nil
    (.cons { name := "Topics".toList, typ := "[]FetchTopic".toList, versions := "0+".toList }
      (.cons { name := "Topic".toList, typ := "string".toList, versions := "0-12".toList, ignorable := true } .nil
      (.cons { name := "TopicId".toList, typ := "uuid".toList, versions := "13+".toList, ignorable := true } .nil
      (.cons { name := "Partitions".toList, typ := "[]FetchPartition".toList, versions := "0+".toList }
        (.cons { name := "Partition".toList, typ := "int32".toList, versions := "0+".toList } .nil
        (.cons { name := "CurrentLeaderEpoch".toList, typ := "int32".toList, versions := "9+".toList, dflt := some (.str "-1".toList), ignorable := true } .nil
        (.cons { name := "FetchOffset".toList, typ := "int64".toList, versions := "0+".toList } .nil
        (.cons { name := "LastFetchedEpoch".toList, typ := "int32".toList, versions := "12+".toList, dflt := some (.str "-1".toList) } .nil
        (.cons { name := "LogStartOffset".toList, typ := "int64".toList, versions := "5+".toList, dflt := some (.str "-1".toList), ignorable := true } .nil
        (.cons { name := "PartitionMaxBytes".toList, typ := "int32".toList, versions := "0+".toList } .nil
        .nil))))))
      .nil)))
    (.cons { name := "ForgottenTopicsData".toList, typ := "[]ForgottenTopic".toList, versions := "7+".toList }
      (.cons { name := "Topic".toList, typ := "string".toList, versions := "7-12".toList, ignorable := true } .nil
      (.cons { name := "TopicId".toList, typ := "uuid".toList, versions := "13+".toList, ignorable := true } .nil
      (.cons { name := "Partitions".toList, typ := "[]int32".toList, versions := "7+".toList } .nil
      .nil)))
    (.cons { name := "RackId".toList, typ := "string".toList, versions := "11+".toList, dflt := some (.str "".toList), ignorable := true } .nil
    .nil)))))))))))

/-- assets/protocol_spec/FetchResponse.json -/
def p_FetchResponse : MSpec where
  apiKey := 1
  typ := "response".toList
  name := "FetchResponse".toList
  valid := "0-13".toList
  flex := "12+".toList
  common := []
  fields :=
    (.cons { name := "ThrottleTimeMs".toList, typ := "int32".toList, versions := "1+".toList, ignorable := true } .nil
    (.cons { name := "ErrorCode".toList, typ := "int16".toList, versions := "7+".toList, ignorable := true } .nil
    (.cons { name := "SessionId".toList, typ := "int32".toList, versions := "7+".toList, dflt := some (.str "0".toList) } .nil
    (.cons { name := "Responses".toList, typ := "[]FetchableTopicResponse".toList, versions := "0+".toList }
      (.cons { name := "Topic".toList, typ := "string".toList, versions := "0-12".toList, ignorable := true } .nil
      (.cons { name := "TopicId".toList, typ := "uuid".toList, versions := "13+".toList, ignorable := true } .nil
      (.cons { name := "Partitions".toList, typ := "[]PartitionData".toList, versions := "0+".toList }
        (.cons { name := "PartitionIndex".toList, typ := "int32".toList, versions := "0+".toList } .nil
        (.cons { name := "ErrorCode".toList, typ := "int16".toList, versions := "0+".toList } .nil
        (.cons { name := "HighWatermark".toList, typ := "int64".toList, versions := "0+".toList } .nil
        (.cons { name := "LastStableOffset".toList, typ := "int64".toList, versions := "4+".toList, dflt := some (.str "-1".toList), ignorable := true } .nil
        (.cons { name := "LogStartOffset".toList, typ := "int64".toList, versions := "5+".toList, dflt := some (.str "-1".toList), ignorable := true } .nil
        (.cons { name := "DivergingEpoch".toList, typ := "EpochEndOffset".toList, versions := "12+".toList, tagged := "12+".toList, tag := some 0 }
          (.cons { name := "Epoch".toList, typ := "int32".toList, versions := "12+".toList, dflt := some (.str "-1".toList) } .nil
          (.cons { name := "EndOffset".toList, typ := "int64".toList, versions := "12+".toList, dflt := some (.str "-1".toList) } .nil
          .nil))
        (.cons { name := "CurrentLeader".toList, typ := "LeaderIdAndEpoch".toList, versions := "12+".toList, tagged := "12+".toList, tag := some 1 }
          (.cons { name := "LeaderId".toList, typ := "int32".toList, versions := "12+".toList, dflt := some (.str "-1".toList) } .nil
          (.cons { name := "LeaderEpoch".toList, typ := "int32".toList, versions := "12+".toList, dflt := some (.str "-1".toList) } .nil
          .nil))
        (.cons { name := "SnapshotId".toList, typ := "SnapshotId".toList, versions := "12+".toList, tagged := "12+".toList, tag := some 2 }
          (.cons { name := "EndOffset".toList, typ := "int64".toList, versions := "0+".toList, dflt := some (.str "-1".toList) } .nil
          (.cons { name := "Epoch".toList, typ := "int32".toList, versions := "0+".toList, dflt := some (.str "-1".toList) } .nil
          .nil))
        (.cons { name := "AbortedTransactions".toList, typ := "[]AbortedTransaction".toList, versions := "4+".toList, nullable := "4+".toList, ignorable := true }
          (.cons { name := "ProducerId".toList, typ := "int64".toList, versions := "4+".toList } .nil
          (.cons { name := "FirstOffset".toList, typ := "int64".toList, versions := "4+".toList } .nil
          .nil))
        (.cons { name := "PreferredReadReplica".toList, typ := "int32".toList, versions := "11+".toList, dflt := some (.str "-1".toList) } .nil
        (.cons { name := "Records".toList, typ := "records".toList, versions := "0+".toList, nullable := "0+".toList } .nil
        .nil)))))))))))
      .nil)))
    .nil))))

/-- assets/protocol_spec/FetchSnapshotRequest.json -/
def p_FetchSnapshotRequest : MSpec where
  apiKey := 59
  typ := "request".toList
  name := "FetchSnapshotRequest".toList
  valid := "0".toList
  flex := "0+".toList
  common := []
  fields :=
    (.cons { name := "ClusterId".toList, typ := "string".toList, versions := "0+".toList, nullable := "0+".toList, tagged := "0+".toList, dflt := some (.str "null".toList), tag := some 0 } .nil
    (.cons { name := "ReplicaId".toList, typ := "int32".toList, versions := "0+".toList, dflt := some (.str "-1".toList) } .nil
    (.cons { name := "MaxBytes".toList, typ := "int32".toList, versions := "0+".toList, dflt := some (.str "0x7fffffff".toList) } .nil
    (.cons { name := "Topics".toList, typ := "[]TopicSnapshot".toList, versions := "0+".toList }
      (.cons { name := "Name".toList, typ := "string".toList, versions := "0+".toList } .nil
      (.cons { name := "Partitions".toList, typ := "[]PartitionSnapshot".toList, versions := "0+".toList }
        (.cons { name := "Partition".toList, typ := "int32".toList, versions := "0+".toList } .nil
        (.cons { name := "CurrentLeaderEpoch".toList, typ := "int32".toList, versions := "0+".toList } .nil
        (.cons { name := "SnapshotId".toList, typ := "SnapshotId".toList, versions := "0+".toList }
          (.cons { name := "EndOffset".toList, typ := "int64".toList, versions := "0+".toList } .nil
          (.cons { name := "Epoch".toList, typ := "int32".toList, versions := "0+".toList } .nil
          .nil))
        (.cons { name := "Position".toList, typ := "int64".toList, versions := "0+".toList } .nil
        .nil))))
      .nil))
    .nil))))

/-- assets/protocol_spec/FetchSnapshotResponse.json -/
def p_FetchSnapshotResponse : MSpec where
  apiKey := 59
  typ := "response".toList
  name := "FetchSnapshotResponse".toList
  valid := "0".toList
  flex := "0+".toList
  common := []
  fields :=
    (.cons { name := "ThrottleTimeMs".toList, typ := "int32".toList, versions := "0+".toList, ignorable := true } .nil
    (.cons { name := "ErrorCode".toList, typ := "int16".toList, versions := "0+".toList } .nil
    (.cons { name := "Topics".toList, typ := "[]TopicSnapshot".toList, versions := "0+".toList }
      (.cons { name := "Name".toList, typ := "string".toList, versions := "0+".toList } .nil
      (.cons { name := "Partitions".toList, typ := "[]PartitionSnapshot".toList, versions := "0+".toList }
        (.cons { name := "Index".toList, typ := "int32".toList, versions := "0+".toList } .nil
        (.cons { name := "ErrorCode".toList, typ := "int16".toList, versions := "0+".toList } .nil
        (.cons { name := "SnapshotId".toList, typ := "SnapshotId".toList, versions := "0+".toList }
          (.cons { name := "EndOffset".toList, typ := "int64".toList, versions := "0+".toList } .nil
          (.cons { name := "Epoch".toList, typ := "int32".toList, versions := "0+".toList } .nil
          .nil))
        (.cons { name := "CurrentLeader".toList, typ := "LeaderIdAndEpoch".toList, versions := "0+".toList, tagged := "0+".toList, tag := some 0 }
          (.cons { name := "LeaderId".toList, typ := "int32".toList, versions := "0+".toList } .nil
          (.cons { name := "LeaderEpoch".toList, typ := "int32".toList, versions := "0+".toList } .nil
          .nil))
        (.cons { name := "Size".toList, typ := "int64".toList, versions := "0+".toList } .nil
        (.cons { name := "Position".toList, typ := "int64".toList, versions := "0+".toList } .nil
        (.cons { name := "UnalignedRecords".toList, typ := "records".toList, versions := "0+".toList } .nil
        .nil)))))))
      .nil))
    .nil)))

/-- assets/protocol_spec/FindCoordinatorRequest.json -/
def p_FindCoordinatorRequest : MSpec where
  apiKey := 10
  typ := "request".toList
  name := "FindCoordinatorRequest".toList
  valid := "0-4".toList
  flex := "3+".toList
  common := []
  fields :=
    (.cons { name := "Key".toList, typ := "string".toList, versions := "0-3".toList } .nil
    (.cons { name := "KeyType".toList, typ := "int8".toList, versions := "1+".toList, dflt := some (.str "0".toList) } .nil
    (.cons { name := "CoordinatorKeys".toList, typ := "[]string".toList, versions := "4+".toList } .nil
    .nil)))

/-- assets/protocol_spec/FindCoordinatorResponse.json -/
def p_FindCoordinatorResponse : MSpec where
  apiKey := 10
  typ := "response".toList
  name := "FindCoordinatorResponse".toList
  valid := "0-4".toList
  flex := "3+".toList
  common := []
  fields :=
    (.cons { name := "ThrottleTimeMs".toList, typ := "int32".toList, versions := "1+".toList, ignorable := true } .nil
    (.cons { name := "ErrorCode".toList, typ := "int16".toList, versions := "0-3".toList } .nil
    (.cons { name := "ErrorMessage".toList, typ := "string".toList, versions := "1-3".toList, nullable := "1-3".toList, ignorable := true } .nil
    (.cons { name := "NodeId".toList, typ := "int32".toList, versions := "0-3".toList } .nil
    (.cons { name := "Host".toList, typ := "string".toList, versions := "0-3".toList } .nil
    (.cons { name := "Port".toList, typ := "int32".toList, versions := "0-3".toList } .nil
    (.cons { name := "Coordinators".toList, typ := "[]Coordinator".toList, versions := "4+".toList }
      (.cons { name := "Key".toList, typ := "string".toList, versions := "4+".toList } .nil
      (.cons { name := "NodeId".toList, typ := "int32".toList, versions := "4+".toList } .nil
      (.cons { name := "Host".toList, typ := "string".toList, versions := "4+".toList } .nil
      (.cons { name := "Port".toList, typ := "int32".toList, versions := "4+".toList } .nil
      (.cons { name := "ErrorCode".toList, typ := "int16".toList, versions := "4+".toList } .nil
      (.cons { name := "ErrorMessage".toList, typ := "string".toList, versions := "4+".toList, nullable := "4+".toList, ignorable := true } .nil
      .nil))))))
    .nil)))))))

/-- assets/protocol_spec/HeartbeatRequest.json -/
def p_HeartbeatRequest : MSpec where
  apiKey := 12
  typ := "request".toList
  name := "HeartbeatRequest".toList
  valid := "0-4".toList
  flex := "4+".toList
  common := []
  fields :=
    (.cons { name := "GroupId".toList, typ := "string".toList, versions := "0+".toList } .nil
    (.cons { name := "GenerationId".toList, typ := "int32".toList, versions := "0+".toList } .nil
    (.cons { name := "MemberId".toList, typ := "string".toList, versions := "0+".toList } .nil
    (.cons { name := "GroupInstanceId".toList, typ := "string".toList, versions := "3+".toList, nullable := "3+".toList, dflt := some (.str "null".toList) } .nil
    .nil))))

/-- assets/protocol_spec/HeartbeatResponse.json -/
def p_HeartbeatResponse : MSpec where
  apiKey := 12
  typ := "response".toList
  name := "HeartbeatResponse".toList
  valid := "0-4".toList
  flex := "4+".toList
  common := []
  fields :=
    (.cons { name := "ThrottleTimeMs".toList, typ := "int32".toList, versions := "1+".toList, ignorable := true } .nil
    (.cons { name := "ErrorCode".toList, typ := "int16".toList, versions := "0+".toList } .nil
    .nil))

/-- assets/protocol_spec/IncrementalAlterConfigsRequest.json -/
def p_IncrementalAlterConfigsRequest : MSpec where
  apiKey := 44
  typ := "request".toList
  name := "IncrementalAlterConfigsRequest".toList
  valid := "0-1".toList
  flex := "1+".toList
  common := []
  fields :=
    (.cons { name := "Resources".toList, typ := "[]AlterConfigsResource".toList, versions := "0+".toList }
      (.cons { name := "ResourceType".toList, typ := "int8".toList, versions := "0+".toList } .nil
      (.cons { name := "ResourceName".toList, typ := "string".toList, versions := "0+".toList } .nil
      (.cons { name := "Configs".toList, typ := "[]AlterableConfig".toList, versions := "0+".toList }
        (.cons { name := "Name".toList, typ := "string".toList, versions := "0+".toList } .nil
        (.cons { name := "ConfigOperation".toList, typ := "int8".toList, versions := "0+".toList } .nil
        (.cons { name := "Value".toList, typ := "string".toList, versions := "0+".toList, nullable := "0+".toList } .nil
        .nil)))
      .nil)))
    (.cons { name := "ValidateOnly".toList, typ := "bool".toList, versions := "0+".toList } .nil
    .nil))

/-- assets/protocol_spec/IncrementalAlterConfigsResponse.json -/
def p_IncrementalAlterConfigsResponse : MSpec where
  apiKey := 44
  typ := "response".toList
  name := "IncrementalAlterConfigsResponse".toList
  valid := "0-1".toList
  flex := "1+".toList
  common := []
  fields :=
    (.cons { name := "ThrottleTimeMs".toList, typ := "int32".toList, versions := "0+".toList } .nil
    (.cons { name := "Responses".toList, typ := "[]AlterConfigsResourceResponse".toList, versions := "0+".toList }
      (.cons { name := "ErrorCode".toList, typ := "int16".toList, versions := "0+".toList } .nil
      (.cons { name := "ErrorMessage".toList, typ := "string".toList, versions := "0+".toList, nullable := "0+".toList } .nil
      (.cons { name := "ResourceType".toList, typ := "int8".toList, versions := "0+".toList } .nil
      (.cons { name := "ResourceName".toList, typ := "string".toList, versions := "0+".toList } .nil
      .nil))))
    .nil))

/-- assets/protocol_spec/InitProducerIdRequest.json -/
def p_InitProducerIdRequest : MSpec where
  apiKey := 22
  typ := "request".toList
  name := "InitProducerIdRequest".toList
  valid := "0-4".toList
  flex := "2+".toList
  common := []
  fields :=
    (.cons { name := "TransactionalId".toList, typ := "string".toList, versions := "0+".toList, nullable := "0+".toList } .nil
    (.cons { name := "TransactionTimeoutMs".toList, typ := "int32".toList, versions := "0+".toList } .nil
    (.cons { name := "ProducerId".toList, typ := "int64".toList, versions := "3+".toList, dflt := some (.str "-1".toList) } .nil
    (.cons { name := "ProducerEpoch".toList, typ := "int16".toList, versions := "3+".toList, dflt := some (.str "-1".toList) } .nil
    .nil))))

/-- assets/protocol_spec/InitProducerIdResponse.json -/
def p_InitProducerIdResponse : MSpec where
  apiKey := 22
  typ := "response".toList
  name := "InitProducerIdResponse".toList
  valid := "0-4".toList
  flex := "2+".toList
  common := []
  fields :=
    (.cons { name := "ThrottleTimeMs".toList, typ := "int32".toList, versions := "0+".toList, ignorable := true } .nil
    (.cons { name := "ErrorCode".toList, typ := "int16".toList, versions := "0+".toList } .nil
    (.cons { name := "ProducerId".toList, typ := "int64".toList, versions := "0+".toList, dflt := some (.num (-1)) } .nil
    (.cons { name := "ProducerEpoch".toList, typ := "int16".toList, versions := "0+".toList } .nil
    .nil))))

/-- assets/protocol_spec/JoinGroupRequest.json -/
def p_JoinGroupRequest : MSpec where
  apiKey := 11
  typ := "request".toList
  name := "JoinGroupRequest".toList
  valid := "0-9".toList
  flex := "6+".toList
  common := []
  fields :=
    (.cons { name := "GroupId".toList, typ := "string".toList, versions := "0+".toList } .nil
    (.cons { name := "SessionTimeoutMs".toList, typ := "int32".toList, versions := "0+".toList } .nil
    (.cons { name := "RebalanceTimeoutMs".toList, typ := "int32".toList, versions := "1+".toList, dflt := some (.str "-1".toList), ignorable := true } .nil
    (.cons { name := "MemberId".toList, typ := "string".toList, versions := "0+".toList } .nil
    (.cons { name := "GroupInstanceId".toList, typ := "string".toList, versions := "5+".toList, nullable := "5+".toList, dflt := some (.str "null".toList) } .nil
    (.cons { name := "ProtocolType".toList, typ := "string".toList, versions := "0+".toList } .nil
    (.cons { name := "Protocols".toList, typ := "[]JoinGroupRequestProtocol".toList, versions := "0+".toList }
      (.cons { name := "Name".toList, typ := "string".toList, versions := "0+".toList } .nil
      (.cons { name := "Metadata".toList, typ := "bytes".toList, versions := "0+".toList } .nil
      .nil))
    (.cons { name := "Reason".toList, typ := "string".toList, versions := "8+".toList, nullable := "8+".toList, dflt := some (.str "null".toList), ignorable := true } .nil
    .nil))))))))

/-- assets/protocol_spec/JoinGroupResponse.json -/
def p_JoinGroupResponse : MSpec where
  apiKey := 11
  typ := "response".toList
  name := "JoinGroupResponse".toList
  valid := "0-9".toList
  flex := "6+".toList
  common := []
  fields :=
    (.cons { name := "ThrottleTimeMs".toList, typ := "int32".toList, versions := "2+".toList, ignorable := true } .nil
    (.cons { name := "ErrorCode".toList, typ := "int16".toList, versions := "0+".toList } .nil
    (.cons { name := "GenerationId".toList, typ := "int32".toList, versions := "0+".toList, dflt := some (.str "-1".toList) } .nil
    (.cons { name := "ProtocolType".toList, typ := "string".toList, versions := "7+".toList, nullable := "7+".toList, dflt := some (.str "null".toList), ignorable := true } .nil
    (.cons { name := "ProtocolName".toList, typ := "string".toList, versions := "0+".toList, nullable := "7+".toList } .nil
    (.cons { name := "Leader".toList, typ := "string".toList, versions := "0+".toList } .nil
    (.cons { name := "SkipAssignment".toList, typ := "bool".toList, versions := "9+".toList, dflt := some (.str "false".toList) } .nil
    (.cons { name := "MemberId".toList, typ := "string".toList, versions := "0+".toList } .nil
    (.cons { name := "Members".toList, typ := "[]JoinGroupResponseMember".toList, versions := "0+".toList }
      (.cons { name := "MemberId".toList, typ := "string".toList, versions := "0+".toList } .nil
      (.cons { name := "GroupInstanceId".toList, typ := "string".toList, versions := "5+".toList, nullable := "5+".toList, dflt := some (.str "null".toList), ignorable := true } .nil
      (.cons { name := "Metadata".toList, typ := "bytes".toList, versions := "0+".toList } .nil
      .nil)))
    .nil)))))))))

/-- assets/protocol_spec/LeaderAndIsrRequest.json -/
def p_LeaderAndIsrRequest : MSpec where
  apiKey := 4
  typ := "request".toList
  name := "LeaderAndIsrRequest".toList
  valid := "0-7".toList
  flex := "4+".toList
  common := [("LeaderAndIsrPartitionState".toList,
    (.cons { name := "TopicName".toList, typ := "string".toList, versions := "0-1".toList, ignorable := true } .nil
    (.cons { name := "PartitionIndex".toList, typ := "int32".toList, versions := "0+".toList } .nil
    (.cons { name := "ControllerEpoch".toList, typ := "int32".toList, versions := "0+".toList } .nil
    (.cons { name := "Leader".toList, typ := "int32".toList, versions := "0+".toList } .nil
    (.cons { name := "LeaderEpoch".toList, typ := "int32".toList, versions := "0+".toList } .nil
    (.cons { name := "Isr".toList, typ := "[]int32".toList, versions := "0+".toList } .nil
    (.cons { name := "PartitionEpoch".toList, typ := "int32".toList, versions := "0+".toList } .nil
    (.cons { name := "Replicas".toList, typ := "[]int32".toList, versions := "0+".toList } .nil
    (.cons { name := "AddingReplicas".toList, typ := "[]int32".toList, versions := "3+".toList, ignorable := true } .nil
    (.cons { name := "RemovingReplicas".toList, typ := "[]int32".toList, versions := "3+".toList, ignorable := true } .nil
    (.cons { name := "IsNew".toList, typ := "bool".toList, versions := "1+".toList, dflt := some (.str "false".toList), ignorable := true } .nil
    (.cons { name := "LeaderRecoveryState".toList, typ := "int8".toList, versions := "6+".toList, dflt := some (.str "0".toList) } .nil
    .nil)))))))))))))]
  fields :=
    (.cons { name := "ControllerId".toList, typ := "int32".toList, versions := "0+".toList } .nil
    (.cons { name := "isKRaftController".toList, typ := "bool".toList, versions := "7+".toList, dflt := some (.str "false".toList) } .nil
    (.cons { name := "ControllerEpoch".toList, typ := "int32".toList, versions := "0+".toList } .nil
    (.cons { name := "BrokerEpoch".toList, typ := "int64".toList, versions := "2+".toList, dflt := some (.str "-1".toList), ignorable := true } .nil
    (.cons { name := "Type".toList, typ := "int8".toList, versions := "5+".toList } .nil
    (.cons { name := "UngroupedPartitionStates".toList, typ := "[]LeaderAndIsrPartitionState".toList, versions := "0-1".toList } .nil
    (.cons { name := "TopicStates".toList, typ := "[]LeaderAndIsrTopicState".toList, versions := "2+".toList }
      (.cons { name := "TopicName".toList, typ := "string".toList, versions := "2+".toList } .nil
      (.cons { name := "TopicId".toList, typ := "uuid".toList, versions := "5+".toList, ignorable := true } .nil
      (.cons { name := "PartitionStates".toList, typ := "[]LeaderAndIsrPartitionState".toList, versions := "2+".toList } .nil
      .nil)))
    (.cons { name := "LiveLeaders".toList, typ := "[]LeaderAndIsrLiveLeader".toList, versions := "0+".toList }
      (.cons { name := "BrokerId".toList, typ := "int32".toList, versions := "0+".toList } .nil
      (.cons { name := "HostName".toList, typ := "string".toList, versions := "0+".toList } .nil
      (.cons { name := "Port".toList, typ := "int32".toList, versions := "0+".toList } .nil
      .nil)))
    .nil))))))))

/-- assets/protocol_spec/LeaderAndIsrResponse.json -/
def p_LeaderAndIsrResponse : MSpec where
  apiKey := 4
  typ := "response".toList
  name := "LeaderAndIsrResponse".toList
  valid := "0-7".toList
  flex := "4+".toList
  common := [("LeaderAndIsrPartitionError".toList,
    (.cons { name := "TopicName".toList, typ := "string".toList, versions := "0-4".toList, ignorable := true } .nil
    (.cons { name := "PartitionIndex".toList, typ := "int32".toList, versions := "0+".toList } .nil
    (.cons { name := "ErrorCode".toList, typ := "int16".toList, versions := "0+".toList } .nil
    .nil))))]
  fields :=
    (.cons { name := "ErrorCode".toList, typ := "int16".toList, versions := "0+".toList } .nil
    (.cons { name := "PartitionErrors".toList, typ := "[]LeaderAndIsrPartitionError".toList, versions := "0-4".toList } .nil
    (.cons { name := "Topics".toList, typ := "[]LeaderAndIsrTopicError".toList, versions := "5+".toList }
      (.cons { name := "TopicId".toList, typ := "uuid".toList, versions := "5+".toList } .nil
      (.cons { name := "PartitionErrors".toList, typ := "[]LeaderAndIsrPartitionError".toList, versions := "5+".toList } .nil
      .nil))
    .nil)))

/-- assets/protocol_spec/LeaveGroupRequest.json -/
def p_LeaveGroupRequest : MSpec where
  apiKey := 13
  typ := "request".toList
  name := "LeaveGroupRequest".toList
  valid := "0-5".toList
  flex := "4+".toList
  common := []
  fields :=
    (.cons { name := "GroupId".toList, typ := "string".toList, versions := "0+".toList } .nil
    (.cons { name := "MemberId".toList, typ := "string".toList, versions := "0-2".toList } .nil
    (.cons { name := "Members".toList, typ := "[]MemberIdentity".toList, versions := "3+".toList }
      (.cons { name := "MemberId".toList, typ := "string".toList, versions := "3+".toList } .nil
      (.cons { name := "GroupInstanceId".toList, typ := "string".toList, versions := "3+".toList, nullable := "3+".toList, dflt := some (.str "null".toList) } .nil
      (.cons { name := "Reason".toList, typ := "string".toList, versions := "5+".toList, nullable := "5+".toList, dflt := some (.str "null".toList), ignorable := true } .nil
      .nil)))
    .nil)))

/-- assets/protocol_spec/LeaveGroupResponse.json -/
def p_LeaveGroupResponse : MSpec where
  apiKey := 13
  typ := "response".toList
  name := "LeaveGroupResponse".toList
  valid := "0-5".toList
  flex := "4+".toList
  common := []
  fields :=
    (.cons { name := "ThrottleTimeMs".toList, typ := "int32".toList, versions := "1+".toList, ignorable := true } .nil
    (.cons { name := "ErrorCode".toList, typ := "int16".toList, versions := "0+".toList } .nil
    (.cons { name := "Members".toList, typ := "[]MemberResponse".toList, versions := "3+".toList }
      (.cons { name := "MemberId".toList, typ := "string".toList, versions := "3+".toList } .nil
      (.cons { name := "GroupInstanceId".toList, typ := "string".toList, versions := "3+".toList, nullable := "3+".toList } .nil
      (.cons { name := "ErrorCode".toList, typ := "int16".toList, versions := "3+".toList } .nil
      .nil)))
    .nil)))

/-- assets/protocol_spec/ListGroupsRequest.json -/
def p_ListGroupsRequest : MSpec where
  apiKey := 16
  typ := "request".toList
  name := "ListGroupsRequest".toList
  valid := "0-4".toList
  flex := "3+".toList
  common := []
  fields :=
    (.cons { name := "StatesFilter".toList, typ := "[]string".toList, versions := "4+".toList } .nil
    .nil)

/-- assets/protocol_spec/ListGroupsResponse.json -/
def p_ListGroupsResponse : MSpec where
  apiKey := 16
  typ := "response".toList
  name := "ListGroupsResponse".toList
  valid := "0-4".toList
  flex := "3+".toList
  common := []
  fields :=
    (.cons { name := "ThrottleTimeMs".toList, typ := "int32".toList, versions := "1+".toList, ignorable := true } .nil
    (.cons { name := "ErrorCode".toList, typ := "int16".toList, versions := "0+".toList } .nil
    (.cons { name := "Groups".toList, typ := "[]ListedGroup".toList, versions := "0+".toList }
      (.cons { name := "GroupId".toList, typ := "string".toList, versions := "0+".toList } .nil
      (.cons { name := "ProtocolType".toList, typ := "string".toList, versions := "0+".toList } .nil
      (.cons { name := "GroupState".toList, typ := "string".toList, versions := "4+".toList, ignorable := true } .nil
      .nil)))
    .nil)))

/-- assets/protocol_spec/ListOffsetsRequest.json -/
def p_ListOffsetsRequest : MSpec where
  apiKey := 2
  typ := "request".toList
  name := "ListOffsetsRequest".toList
  valid := "0-7".toList
  flex := "6+".toList
  common := []
  fields :=
    (.cons { name := "ReplicaId".toList, typ := "int32".toList, versions := "0+".toList } .nil
    (.cons { name := "IsolationLevel".toList, typ := "int8".toList, versions := "2+".toList } .nil
    (.cons { name := "Topics".toList, typ := "[]ListOffsetsTopic".toList, versions := "0+".toList }
      (.cons { name := "Name".toList, typ := "string".toList, versions := "0+".toList } .nil
      (.cons { name := "Partitions".toList, typ := "[]ListOffsetsPartition".toList, versions := "0+".toList }
        (.cons { name := "PartitionIndex".toList, typ := "int32".toList, versions := "0+".toList } .nil
        (.cons { name := "CurrentLeaderEpoch".toList, typ := "int32".toList, versions := "4+".toList, dflt := some (.str "-1".toList), ignorable := true } .nil
        (.cons { name := "Timestamp".toList, typ := "int64".toList, versions := "0+".toList } .nil
        (.cons { name := "MaxNumOffsets".toList, typ := "int32".toList, versions := "0".toList, dflt := some (.str "1".toList) } .nil
        .nil))))
      .nil))
    .nil)))

/-- assets/protocol_spec/ListOffsetsResponse.json -/
def p_ListOffsetsResponse : MSpec where
  apiKey := 2
  typ := "response".toList
  name := "ListOffsetsResponse".toList
  valid := "0-7".toList
  flex := "6+".toList
  common := []
  fields :=
    (.cons { name := "ThrottleTimeMs".toList, typ := "int32".toList, versions := "2+".toList, ignorable := true } .nil
    (.cons { name := "Topics".toList, typ := "[]ListOffsetsTopicResponse".toList, versions := "0+".toList }
      (.cons { name := "Name".toList, typ := "string".toList, versions := "0+".toList } .nil
      (.cons { name := "Partitions".toList, typ := "[]ListOffsetsPartitionResponse".toList, versions := "0+".toList }
        (.cons { name := "PartitionIndex".toList, typ := "int32".toList, versions := "0+".toList } .nil
        (.cons { name := "ErrorCode".toList, typ := "int16".toList, versions := "0+".toList } .nil
        (.cons { name := "OldStyleOffsets".toList, typ := "[]int64".toList, versions := "0".toList } .nil
        (.cons { name := "Timestamp".toList, typ := "int64".toList, versions := "1+".toList, dflt := some (.str "-1".toList) } .nil
        (.cons { name := "Offset".toList, typ := "int64".toList, versions := "1+".toList, dflt := some (.str "-1".toList) } .nil
        (.cons { name := "LeaderEpoch".toList, typ := "int32".toList, versions := "4+".toList, dflt := some (.str "-1".toList) } .nil
        .nil))))))
      .nil))
    .nil))

/-- assets/protocol_spec/ListPartitionReassignmentsRequest.json -/
def p_ListPartitionReassignmentsRequest : MSpec where
  apiKey := 46
  typ := "request".toList
  name := "ListPartitionReassignmentsRequest".toList
  valid := "0".toList
  flex := "0+".toList
  common := []
  fields :=
    (.cons { name := "TimeoutMs".toList, typ := "int32".toList, versions := "0+".toList, dflt := some (.str "60000".toList) } .nil
    (.cons { name := "Topics".toList, typ := "[]ListPartitionReassignmentsTopics".toList, versions := "0+".toList, nullable := "0+".toList, dflt := some (.str "null".toList) }
      (.cons { name := "Name".toList, typ := "string".toList, versions := "0+".toList } .nil
      (.cons { name := "PartitionIndexes".toList, typ := "[]int32".toList, versions := "0+".toList } .nil
      .nil))
    .nil))

/-- assets/protocol_spec/ListPartitionReassignmentsResponse.json -/
def p_ListPartitionReassignmentsResponse : MSpec where
  apiKey := 46
  typ := "response".toList
  name := "ListPartitionReassignmentsResponse".toList
  valid := "0".toList
  flex := "0+".toList
  common := []
  fields :=
    (.cons { name := "ThrottleTimeMs".toList, typ := "int32".toList, versions := "0+".toList } .nil
    (.cons { name := "ErrorCode".toList, typ := "int16".toList, versions := "0+".toList } .nil
    (.cons { name := "ErrorMessage".toList, typ := "string".toList, versions := "0+".toList, nullable := "0+".toList } .nil
    (.cons { name := "Topics".toList, typ := "[]OngoingTopicReassignment".toList, versions := "0+".toList }
      (.cons { name := "Name".toList, typ := "string".toList, versions := "0+".toList } .nil
      (.cons { name := "Partitions".toList, typ := "[]OngoingPartitionReassignment".toList, versions := "0+".toList }
        (.cons { name := "PartitionIndex".toList, typ := "int32".toList, versions := "0+".toList } .nil
        (.cons { name := "Replicas".toList, typ := "[]int32".toList, versions := "0+".toList } .nil
        (.cons { name := "AddingReplicas".toList, typ := "[]int32".toList, versions := "0+".toList } .nil
        (.cons { name := "RemovingReplicas".toList, typ := "[]int32".toList, versions := "0+".toList } .nil
        .nil))))
      .nil))
    .nil))))

/-- assets/protocol_spec/ListTransactionsRequest.json -/
def p_ListTransactionsRequest : MSpec where
  apiKey := 66
  typ := "request".toList
  name := "ListTransactionsRequest".toList
  valid := "0".toList
  flex := "0+".toList
  common := []
  fields :=
    (.cons { name := "StateFilters".toList, typ := "[]string".toList, versions := "0+".toList } .nil
    (.cons { name := "ProducerIdFilters".toList, typ := "[]int64".toList, versions := "0+".toList } .nil
    .nil))

/-- assets/protocol_spec/ListTransactionsResponse.json -/
def p_ListTransactionsResponse : MSpec where
  apiKey := 66
  typ := "response".toList
  name := "ListTransactionsResponse".toList
  valid := "0".toList
  flex := "0+".toList
  common := []
  fields :=
    (.cons { name := "ThrottleTimeMs".toList, typ := "int32".toList, versions := "0+".toList } .nil
    (.cons { name := "ErrorCode".toList, typ := "int16".toList, versions := "0+".toList } .nil
    (.cons { name := "UnknownStateFilters".toList, typ := "[]string".toList, versions := "0+".toList } .nil
    (.cons { name := "TransactionStates".toList, typ := "[]TransactionState".toList, versions := "0+".toList }
      (.cons { name := "TransactionalId".toList, typ := "string".toList, versions := "0+".toList } .nil
      (.cons { name := "ProducerId".toList, typ := "int64".toList, versions := "0+".toList } .nil
      (.cons { name := "TransactionState".toList, typ := "string".toList, versions := "0+".toList } .nil
      .nil)))
    .nil))))

/-- assets/protocol_spec/MetadataRequest.json -/
def p_MetadataRequest : MSpec where
  apiKey := 3
  typ := "request".toList
  name := "MetadataRequest".toList
  valid := "0-12".toList
  flex := "9+".toList
  common := []
  fields :=
    (.cons { name := "Topics".toList, typ := "[]MetadataRequestTopic".toList, versions := "0+".toList, nullable := "1+".toList }
      (.cons { name := "TopicId".toList, typ := "uuid".toList, versions := "10+".toList, ignorable := true } .nil
      (.cons { name := "Name".toList, typ := "string".toList, versions := "0+".toList, nullable := "10+".toList } .nil
      .nil))
    (.cons { name := "AllowAutoTopicCreation".toList, typ := "bool".toList, versions := "4+".toList, dflt := some (.str "true".toList) } .nil
    (.cons { name := "IncludeClusterAuthorizedOperations".toList, typ := "bool".toList, versions := "8-10".toList } .nil
    (.cons { name := "IncludeTopicAuthorizedOperations".toList, typ := "bool".toList, versions := "8+".toList } .nil
    .nil))))

/-- assets/protocol_spec/MetadataResponse.json -/
def p_MetadataResponse : MSpec where
  apiKey := 3
  typ := "response".toList
  name := "MetadataResponse".toList
  valid := "0-12".toList
  flex := "9+".toList
  common := []
  fields :=
    (.cons { name := "ThrottleTimeMs".toList, typ := "int32".toList, versions := "3+".toList, ignorable := true } .nil
    (.cons { name := "Brokers".toList, typ := "[]MetadataResponseBroker".toList, versions := "0+".toList }
      (.cons { name := "NodeId".toList, typ := "int32".toList, versions := "0+".toList } .nil
      (.cons { name := "Host".toList, typ := "string".toList, versions := "0+".toList } .nil
      (.cons { name := "Port".toList, typ := "int32".toList, versions := "0+".toList } .nil
      (.cons { name := "Rack".toList, typ := "string".toList, versions := "1+".toList, nullable := "1+".toList, dflt := some (.str "null".toList), ignorable := true } .nil
      .nil))))
    (.cons { name := "ClusterId".toList, typ := "string".toList, versions := "2+".toList, nullable := "2+".toList, dflt := some (.str "null".toList), ignorable := true } .nil
    (.cons { name := "ControllerId".toList, typ := "int32".toList, versions := "1+".toList, dflt := some (.str "-1".toList), ignorable := true } .nil
    (.cons { name := "Topics".toList, typ := "[]MetadataResponseTopic".toList, versions := "0+".toList }
      (.cons { name := "ErrorCode".toList, typ := "int16".toList, versions := "0+".toList } .nil
      (.cons { name := "Name".toList, typ := "string".toList, versions := "0+".toList, nullable := "12+".toList } .nil
      (.cons { name := "TopicId".toList, typ := "uuid".toList, versions := "10+".toList, ignorable := true } .nil
      (.cons { name := "IsInternal".toList, typ := "bool".toList, versions := "1+".toList, dflt := some (.str "false".toList), ignorable := true } .nil
      (.cons { name := "Partitions".toList, typ := "[]MetadataResponsePartition".toList, versions := "0+".toList }
        (.cons { name := "ErrorCode".toList, typ := "int16".toList, versions := "0+".toList } .nil
        (.cons { name := "PartitionIndex".toList, typ := "int32".toList, versions := "0+".toList } .nil
        (.cons { name := "LeaderId".toList, typ := "int32".toList, versions := "0+".toList } .nil
        (.cons { name := "LeaderEpoch".toList, typ := "int32".toList, versions := "7+".toList, dflt := some (.str "-1".toList), ignorable := true } .nil
        (.cons { name := "ReplicaNodes".toList, typ := "[]int32".toList, versions := "0+".toList } .nil
        (.cons { name := "IsrNodes".toList, typ := "[]int32".toList, versions := "0+".toList } .nil
        (.cons { name := "OfflineReplicas".toList, typ := "[]int32".toList, versions := "5+".toList, ignorable := true } .nil
        .nil)))))))
      (.cons { name := "TopicAuthorizedOperations".toList, typ := "int32".toList, versions := "8+".toList, dflt := some (.str "-2147483648".toList) } .nil
      .nil))))))
    (.cons { name := "ClusterAuthorizedOperations".toList, typ := "int32".toList, versions := "8-10".toList, dflt := some (.str "-2147483648".toList) } .nil
    .nil))))))

/-- assets/protocol_spec/OffsetCommitRequest.json -/
def p_OffsetCommitRequest : MSpec where
  apiKey := 8
  typ := "request".toList
  name := "OffsetCommitRequest".toList
  valid := "0-8".toList
  flex := "8+".toList
  common := []
  fields :=
    (.cons { name := "GroupId".toList, typ := "string".toList, versions := "0+".toList } .nil
    (.cons { name := "GenerationId".toList, typ := "int32".toList, versions := "1+".toList, dflt := some (.str "-1".toList), ignorable := true } .nil
    (.cons { name := "MemberId".toList, typ := "string".toList, versions := "1+".toList, ignorable := true } .nil
    (.cons { name := "GroupInstanceId".toList, typ := "string".toList, versions := "7+".toList, nullable := "7+".toList, dflt := some (.str "null".toList) } .nil
    (.cons { name := "RetentionTimeMs".toList, typ := "int64".toList, versions := "2-4".toList, dflt := some (.str "-1".toList), ignorable := true } .nil
    (.cons { name := "Topics".toList, typ := "[]OffsetCommitRequestTopic".toList, versions := "0+".toList }
      (.cons { name := "Name".toList, typ := "string".toList, versions := "0+".toList } .nil
      (.cons { name := "Partitions".toList, typ := "[]OffsetCommitRequestPartition".toList, versions := "0+".toList }
        (.cons { name := "PartitionIndex".toList, typ := "int32".toList, versions := "0+".toList } .nil
        (.cons { name := "CommittedOffset".toList, typ := "int64".toList, versions := "0+".toList } .nil
        (.cons { name := "CommittedLeaderEpoch".toList, typ := "int32".toList, versions := "6+".toList, dflt := some (.str "-1".toList), ignorable := true } .nil
        (.cons { name := "CommitTimestamp".toList, typ := "int64".toList, versions := "1".toList, dflt := some (.str "-1".toList) } .nil
        (.cons { name := "CommittedMetadata".toList, typ := "string".toList, versions := "0+".toList, nullable := "0+".toList } .nil
        .nil)))))
      .nil))
    .nil))))))

/-- assets/protocol_spec/OffsetCommitResponse.json -/
def p_OffsetCommitResponse : MSpec where
  apiKey := 8
  typ := "response".toList
  name := "OffsetCommitResponse".toList
  valid := "0-8".toList
  flex := "8+".toList
  common := []
  fields :=
    (.cons { name := "ThrottleTimeMs".toList, typ := "int32".toList, versions := "3+".toList, ignorable := true } .nil
    (.cons { name := "Topics".toList, typ := "[]OffsetCommitResponseTopic".toList, versions := "0+".toList }
      (.cons { name := "Name".toList, typ := "string".toList, versions := "0+".toList } .nil
      (.cons { name := "Partitions".toList, typ := "[]OffsetCommitResponsePartition".toList, versions := "0+".toList }
        (.cons { name := "PartitionIndex".toList, typ := "int32".toList, versions := "0+".toList } .nil
        (.cons { name := "ErrorCode".toList, typ := "int16".toList, versions := "0+".toList } .nil
        .nil))
      .nil))
    .nil))

/-- assets/protocol_spec/OffsetDeleteRequest.json -/
def p_OffsetDeleteRequest : MSpec where
  apiKey := 47
  typ := "request".toList
  name := "OffsetDeleteRequest".toList
  valid := "0".toList
  flex := "none".toList
  common := []
  fields :=
    (.cons { name := "GroupId".toList, typ := "string".toList, versions := "0+".toList } .nil
    (.cons { name := "Topics".toList, typ := "[]OffsetDeleteRequestTopic".toList, versions := "0+".toList }
      (.cons { name := "Name".toList, typ := "string".toList, versions := "0+".toList } .nil
      (.cons { name := "Partitions".toList, typ := "[]OffsetDeleteRequestPartition".toList, versions := "0+".toList }
        (.cons { name := "PartitionIndex".toList, typ := "int32".toList, versions := "0+".toList } .nil
        .nil)
      .nil))
    .nil))

/-- assets/protocol_spec/OffsetDeleteResponse.json -/
def p_OffsetDeleteResponse : MSpec where
  apiKey := 47
  typ := "response".toList
  name := "OffsetDeleteResponse".toList
  valid := "0".toList
  flex := "none".toList
  common := []
  fields :=
    (.cons { name := "ErrorCode".toList, typ := "int16".toList, versions := "0+".toList } .nil
    (.cons { name := "ThrottleTimeMs".toList, typ := "int32".toList, versions := "0+".toList, ignorable := true } .nil
    (.cons { name := "Topics".toList, typ := "[]OffsetDeleteResponseTopic".toList, versions := "0+".toList }
      (.cons { name := "Name".toList, typ := "string".toList, versions := "0+".toList } .nil
      (.cons { name := "Partitions".toList, typ := "[]OffsetDeleteResponsePartition".toList, versions := "0+".toList }
        (.cons { name := "PartitionIndex".toList, typ := "int32".toList, versions := "0+".toList } .nil
        (.cons { name := "ErrorCode".toList, typ := "int16".toList, versions := "0+".toList } .nil
        .nil))
      .nil))
    .nil)))

/-- assets/protocol_spec/OffsetFetchRequest.json -/
def p_OffsetFetchRequest : MSpec where
  apiKey := 9
  typ := "request".toList
  name := "OffsetFetchRequest".toList
  valid := "0-8".toList
  flex := "6+".toList
  common := []
  fields :=
    (.cons { name := "GroupId".toList, typ := "string".toList, versions := "0-7".toList } .nil
    (.cons { name := "Topics".toList, typ := "[]OffsetFetchRequestTopic".toList, versions := "0-7".toList, nullable := "2-7".toList }
      (.cons { name := "Name".toList, typ := "string".toList, versions := "0-7".toList } .nil
      (.cons { name := "PartitionIndexes".toList, typ := "[]int32".toList, versions := "0-7".toList } .nil
      .nil))
    (.cons { name := "Groups".toList, typ := "[]OffsetFetchRequestGroup".toList, versions := "8+".toList }
      (.cons { name := "groupId".toList, typ := "string".toList, versions := "8+".toList } .nil
      (.cons { name := "Topics".toList, typ := "[]OffsetFetchRequestTopics".toList, versions := "8+".toList, nullable := "8+".toList }
        (.cons { name := "Name".toList, typ := "string".toList, versions := "8+".toList } .nil
        (.cons { name := "PartitionIndexes".toList, typ := "[]int32".toList, versions := "8+".toList } .nil
        .nil))
      .nil))
    (.cons { name := "RequireStable".toList, typ := "bool".toList, versions := "7+".toList, dflt := some (.str "false".toList) } .nil
    .nil))))

/-- assets/protocol_spec/OffsetFetchResponse.json -/
def p_OffsetFetchResponse : MSpec where
  apiKey := 9
  typ := "response".toList
  name := "OffsetFetchResponse".toList
  valid := "0-8".toList
  flex := "6+".toList
  common := []
  fields :=
    (.cons { name := "ThrottleTimeMs".toList, typ := "int32".toList, versions := "3+".toList, ignorable := true } .nil
    (.cons { name := "Topics".toList, typ := "[]OffsetFetchResponseTopic".toList, versions := "0-7".toList }
      (.cons { name := "Name".toList, typ := "string".toList, versions := "0-7".toList } .nil
      (.cons { name := "Partitions".toList, typ := "[]OffsetFetchResponsePartition".toList, versions := "0-7".toList }
        (.cons { name := "PartitionIndex".toList, typ := "int32".toList, versions := "0-7".toList } .nil
        (.cons { name := "CommittedOffset".toList, typ := "int64".toList, versions := "0-7".toList } .nil
        (.cons { name := "CommittedLeaderEpoch".toList, typ := "int32".toList, versions := "5-7".toList, dflt := some (.str "-1".toList), ignorable := true } .nil
        (.cons { name := "Metadata".toList, typ := "string".toList, versions := "0-7".toList, nullable := "0-7".toList } .nil
        (.cons { name := "ErrorCode".toList, typ := "int16".toList, versions := "0-7".toList } .nil
        .nil)))))
      .nil))
    (.cons { name := "ErrorCode".toList, typ := "int16".toList, versions := "2-7".toList, dflt := some (.str "0".toList), ignorable := true } .nil
    (.cons { name := "Groups".toList, typ := "[]OffsetFetchResponseGroup".toList, versions := "8+".toList }
      (.cons { name := "groupId".toList, typ := "string".toList, versions := "8+".toList } .nil
      (.cons { name := "Topics".toList, typ := "[]OffsetFetchResponseTopics".toList, versions := "8+".toList }
        (.cons { name := "Name".toList, typ := "string".toList, versions := "8+".toList } .nil
        (.cons { name := "Partitions".toList, typ := "[]OffsetFetchResponsePartitions".toList, versions := "8+".toList }
          (.cons { name := "PartitionIndex".toList, typ := "int32".toList, versions := "8+".toList } .nil
          (.cons { name := "CommittedOffset".toList, typ := "int64".toList, versions := "8+".toList } .nil
          (.cons { name := "CommittedLeaderEpoch".toList, typ := "int32".toList, versions := "8+".toList, dflt := some (.str "-1".toList), ignorable := true } .nil
          (.cons { name := "Metadata".toList, typ := "string".toList, versions := "8+".toList, nullable := "8+".toList } .nil
          (.cons { name := "ErrorCode".toList, typ := "int16".toList, versions := "8+".toList } .nil
          .nil)))))
        .nil))
      (.cons { name := "ErrorCode".toList, typ := "int16".toList, versions := "8+".toList, dflt := some (.str "0".toList) } .nil
      .nil)))
    .nil))))

/-- assets/protocol_spec/OffsetForLeaderEpochRequest.json -/
def p_OffsetForLeaderEpochRequest : MSpec where
  apiKey := 23
  typ := "request".toList
  name := "OffsetForLeaderEpochRequest".toList
  valid := "0-4".toList
  flex := "4+".toList
  common := []
  fields :=
    (.cons { name := "ReplicaId".toList, typ := "int32".toList, versions := "3+".toList, dflt := some (.num (-2)), ignorable := true } .nil
    (.cons { name := "Topics".toList, typ := "[]OffsetForLeaderTopic".toList, versions := "0+".toList }
      (.cons { name := "Topic".toList, typ := "string".toList, versions := "0+".toList } .nil
      (.cons { name := "Partitions".toList, typ := "[]OffsetForLeaderPartition".toList, versions := "0+".toList }
        (.cons { name := "Partition".toList, typ := "int32".toList, versions := "0+".toList } .nil
        (.cons { name := "CurrentLeaderEpoch".toList, typ := "int32".toList, versions := "2+".toList, dflt := some (.str "-1".toList), ignorable := true } .nil
        (.cons { name := "LeaderEpoch".toList, typ := "int32".toList, versions := "0+".toList } .nil
        .nil)))
      .nil))
    .nil))

/-- assets/protocol_spec/OffsetForLeaderEpochResponse.json -/
def p_OffsetForLeaderEpochResponse : MSpec where
  apiKey := 23
  typ := "response".toList
  name := "OffsetForLeaderEpochResponse".toList
  valid := "0-4".toList
  flex := "4+".toList
  common := []
  fields :=
    (.cons { name := "ThrottleTimeMs".toList, typ := "int32".toList, versions := "2+".toList, ignorable := true } .nil
    (.cons { name := "Topics".toList, typ := "[]OffsetForLeaderTopicResult".toList, versions := "0+".toList }
      (.cons { name := "Topic".toList, typ := "string".toList, versions := "0+".toList } .nil
      (.cons { name := "Partitions".toList, typ := "[]EpochEndOffset".toList, versions := "0+".toList }
        (.cons { name := "ErrorCode".toList, typ := "int16".toList, versions := "0+".toList } .nil
        (.cons { name := "Partition".toList, typ := "int32".toList, versions := "0+".toList } .nil
        (.cons { name := "LeaderEpoch".toList, typ := "int32".toList, versions := "1+".toList, dflt := some (.str "-1".toList), ignorable := true } .nil
        (.cons { name := "EndOffset".toList, typ := "int64".toList, versions := "0+".toList, dflt := some (.str "-1".toList) } .nil
        .nil))))
      .nil))
    .nil))

/-- assets/protocol_spec/ProduceRequest.json -/
def p_ProduceRequest : MSpec where
  apiKey := 0
  typ := "request".toList
  name := "ProduceRequest".toList
  valid := "0-9".toList
  flex := "9+".toList
  common := []
  fields :=
    (.cons { name := "TransactionalId".toList, typ := "string".toList, versions := "3+".toList, nullable := "3+".toList, dflt := some (.str "null".toList) } .nil
    (.cons { name := "Acks".toList, typ := "int16".toList, versions := "0+".toList } .nil
    (.cons { name := "TimeoutMs".toList, typ := "int32".toList, versions := "0+".toList } .nil
    (.cons { name := "TopicData".toList, typ := "[]TopicProduceData".toList, versions := "0+".toList }
      (.cons { name := "Name".toList, typ := "string".toList, versions := "0+".toList } .nil
      (.cons { name := "PartitionData".toList, typ := "[]PartitionProduceData".toList, versions := "0+".toList }
        (.cons { name := "Index".toList, typ := "int32".toList, versions := "0+".toList } .nil
        (.cons { name := "Records".toList, typ := "records".toList, versions := "0+".toList, nullable := "0+".toList } .nil
        .nil))
      .nil))
    .nil))))

/-- assets/protocol_spec/ProduceResponse.json -/
def p_ProduceResponse : MSpec where
  apiKey := 0
  typ := "response".toList
  name := "ProduceResponse".toList
  valid := "0-9".toList
  flex := "9+".toList
  common := []
  fields :=
    (.cons { name := "Responses".toList, typ := "[]TopicProduceResponse".toList, versions := "0+".toList }
      (.cons { name := "Name".toList, typ := "string".toList, versions := "0+".toList } .nil
      (.cons { name := "PartitionResponses".toList, typ := "[]PartitionProduceResponse".toList, versions := "0+".toList }
        (.cons { name := "Index".toList, typ := "int32".toList, versions := "0+".toList } .nil
        (.cons { name := "ErrorCode".toList, typ := "int16".toList, versions := "0+".toList } .nil
        (.cons { name := "BaseOffset".toList, typ := "int64".toList, versions := "0+".toList } .nil
        (.cons { name := "LogAppendTimeMs".toList, typ := "int64".toList, versions := "2+".toList, dflt := some (.str "-1".toList), ignorable := true } .nil
        (.cons { name := "LogStartOffset".toList, typ := "int64".toList, versions := "5+".toList, dflt := some (.str "-1".toList), ignorable := true } .nil
        (.cons { name := "RecordErrors".toList, typ := "[]BatchIndexAndErrorMessage".toList, versions := "8+".toList, ignorable := true }
          (.cons { name := "BatchIndex".toList, typ := "int32".toList, versions := "8+".toList } .nil
          (.cons { name := "BatchIndexErrorMessage".toList, typ := "string".toList, versions := "8+".toList, nullable := "8+".toList, dflt := some (.str "null".toList) } .nil
          .nil))
        (.cons { name := "ErrorMessage".toList, typ := "string".toList, versions := "8+".toList, nullable := "8+".toList, dflt := some (.str "null".toList), ignorable := true } .nil
        .nil)))))))
      .nil))
    (.cons { name := "ThrottleTimeMs".toList, typ := "int32".toList, versions := "1+".toList, dflt := some (.str "0".toList), ignorable := true } .nil
    .nil))

/-- assets/protocol_spec/RenewDelegationTokenRequest.json -/
def p_RenewDelegationTokenRequest : MSpec where
  apiKey := 39
  typ := "request".toList
  name := "RenewDelegationTokenRequest".toList
  valid := "0-2".toList
  flex := "2+".toList
  common := []
  fields :=
    (.cons { name := "Hmac".toList, typ := "bytes".toList, versions := "0+".toList } .nil
    (.cons { name := "RenewPeriodMs".toList, typ := "int64".toList, versions := "0+".toList } .nil
    .nil))

/-- assets/protocol_spec/RenewDelegationTokenResponse.json -/
def p_RenewDelegationTokenResponse : MSpec where
  apiKey := 39
  typ := "response".toList
  name := "RenewDelegationTokenResponse".toList
  valid := "0-2".toList
  flex := "2+".toList
  common := []
  fields :=
    (.cons { name := "ErrorCode".toList, typ := "int16".toList, versions := "0+".toList } .nil
    (.cons { name := "ExpiryTimestampMs".toList, typ := "int64".toList, versions := "0+".toList } .nil
    (.cons { name := "ThrottleTimeMs".toList, typ := "int32".toList, versions := "0+".toList } .nil
    .nil)))

/-- assets/protocol_spec/RequestHeader.json -/
def p_RequestHeader : MSpec where
  apiKey := 0
  typ := "header".toList
  name := "RequestHeader".toList
  valid := "0-2".toList
  flex := "2+".toList
  common := []
  fields :=
    (.cons { name := "RequestApiKey".toList, typ := "int16".toList, versions := "0+".toList } .nil
    (.cons { name := "RequestApiVersion".toList, typ := "int16".toList, versions := "0+".toList } .nil
    (.cons { name := "CorrelationId".toList, typ := "int32".toList, versions := "0+".toList } .nil
    (.cons { name := "ClientId".toList, typ := "string".toList, versions := "1+".toList, flex := "none".toList, nullable := "1+".toList, ignorable := true } .nil
    .nil))))

/-- assets/protocol_spec/ResponseHeader.json -/
def p_ResponseHeader : MSpec where
  apiKey := 0
  typ := "header".toList
  name := "ResponseHeader".toList
  valid := "0-1".toList
  flex := "1+".toList
  common := []
  fields :=
    (.cons { name := "CorrelationId".toList, typ := "int32".toList, versions := "0+".toList } .nil
    .nil)

/-- assets/protocol_spec/SaslAuthenticateRequest.json -/
def p_SaslAuthenticateRequest : MSpec where
  apiKey := 36
  typ := "request".toList
  name := "SaslAuthenticateRequest".toList
  valid := "0-2".toList
  flex := "2+".toList
  common := []
  fields :=
    (.cons { name := "AuthBytes".toList, typ := "bytes".toList, versions := "0+".toList } .nil
    .nil)

/-- assets/protocol_spec/SaslAuthenticateResponse.json -/
def p_SaslAuthenticateResponse : MSpec where
  apiKey := 36
  typ := "response".toList
  name := "SaslAuthenticateResponse".toList
  valid := "0-2".toList
  flex := "2+".toList
  common := []
  fields :=
    (.cons { name := "ErrorCode".toList, typ := "int16".toList, versions := "0+".toList } .nil
    (.cons { name := "ErrorMessage".toList, typ := "string".toList, versions := "0+".toList, nullable := "0+".toList } .nil
    (.cons { name := "AuthBytes".toList, typ := "bytes".toList, versions := "0+".toList } .nil
    (.cons { name := "SessionLifetimeMs".toList, typ := "int64".toList, versions := "1+".toList, dflt := some (.str "0".toList), ignorable := true } .nil
    .nil))))

/-- assets/protocol_spec/SaslHandshakeRequest.json -/
def p_SaslHandshakeRequest : MSpec where
  apiKey := 17
  typ := "request".toList
  name := "SaslHandshakeRequest".toList
  valid := "0-1".toList
  flex := "none".toList
  common := []
  fields :=
    (.cons { name := "Mechanism".toList, typ := "string".toList, versions := "0+".toList } .nil
    .nil)

/-- assets/protocol_spec/SaslHandshakeResponse.json -/
def p_SaslHandshakeResponse : MSpec where
  apiKey := 17
  typ := "response".toList
  name := "SaslHandshakeResponse".toList
  valid := "0-1".toList
  flex := "none".toList
  common := []
  fields :=
    (.cons { name := "ErrorCode".toList, typ := "int16".toList, versions := "0+".toList } .nil
    (.cons { name := "Mechanisms".toList, typ := "[]string".toList, versions := "0+".toList } .nil
    .nil))

/-- assets/protocol_spec/StopReplicaRequest.json -/
def p_StopReplicaRequest : MSpec where
  apiKey := 5
  typ := "request".toList
  name := "StopReplicaRequest".toList
  valid := "0-4".toList
  flex := "2+".toList
  common := []
  fields :=
    (.cons { name := "ControllerId".toList, typ := "int32".toList, versions := "0+".toList } .nil
    (.cons { name := "isKRaftController".toList, typ := "bool".toList, versions := "4+".toList, dflt := some (.str "false".toList) } .nil
    (.cons { name := "ControllerEpoch".toList, typ := "int32".toList, versions := "0+".toList } .nil
    (.cons { name := "BrokerEpoch".toList, typ := "int64".toList, versions := "1+".toList, dflt := some (.str "-1".toList), ignorable := true } .nil
    (.cons { name := "DeletePartitions".toList, typ := "bool".toList, versions := "0-2".toList } .nil
    (.cons { name := "UngroupedPartitions".toList, typ := "[]StopReplicaPartitionV0".toList, versions := "0".toList }
      (.cons { name := "TopicName".toList, typ := "string".toList, versions := "0".toList } .nil
      (.cons { name := "PartitionIndex".toList, typ := "int32".toList, versions := "0".toList } .nil
      .nil))
    (.cons { name := "Topics".toList, typ := "[]StopReplicaTopicV1".toList, versions := "1-2".toList }
      (.cons { name := "Name".toList, typ := "string".toList, versions := "1-2".toList } .nil
      (.cons { name := "PartitionIndexes".toList, typ := "[]int32".toList, versions := "1-2".toList } .nil
      .nil))
    (.cons { name := "TopicStates".toList, typ := "[]StopReplicaTopicState".toList, versions := "3+".toList }
      (.cons { name := "TopicName".toList, typ := "string".toList, versions := "3+".toList } .nil
      (.cons { name := "PartitionStates".toList, typ := "[]StopReplicaPartitionState".toList, versions := "3+".toList }
        (.cons { name := "PartitionIndex".toList, typ := "int32".toList, versions := "3+".toList } .nil
        (.cons { name := "LeaderEpoch".toList, typ := "int32".toList, versions := "3+".toList, dflt := some (.str "-1".toList) } .nil
        (.cons { name := "DeletePartition".toList, typ := "bool".toList, versions := "3+".toList } .nil
        .nil)))
      .nil))
    .nil))))))))

/-- assets/protocol_spec/StopReplicaResponse.json -/
def p_StopReplicaResponse : MSpec where
  apiKey := 5
  typ := "response".toList
  name := "StopReplicaResponse".toList
  valid := "0-4".toList
  flex := "2+".toList
  common := []
  fields :=
    (.cons { name := "ErrorCode".toList, typ := "int16".toList, versions := "0+".toList } .nil
    (.cons { name := "PartitionErrors".toList, typ := "[]StopReplicaPartitionError".toList, versions := "0+".toList }
      (.cons { name := "TopicName".toList, typ := "string".toList, versions := "0+".toList } .nil
      (.cons { name := "PartitionIndex".toList, typ := "int32".toList, versions := "0+".toList } .nil
      (.cons { name := "ErrorCode".toList, typ := "int16".toList, versions := "0+".toList } .nil
      .nil)))
    .nil))

/-- assets/protocol_spec/SyncGroupRequest.json -/
def p_SyncGroupRequest : MSpec where
  apiKey := 14
  typ := "request".toList
  name := "SyncGroupRequest".toList
  valid := "0-5".toList
  flex := "4+".toList
  common := []
  fields :=
    (.cons { name := "GroupId".toList, typ := "string".toList, versions := "0+".toList } .nil
    (.cons { name := "GenerationId".toList, typ := "int32".toList, versions := "0+".toList } .nil
    (.cons { name := "MemberId".toList, typ := "string".toList, versions := "0+".toList } .nil
    (.cons { name := "GroupInstanceId".toList, typ := "string".toList, versions := "3+".toList, nullable := "3+".toList, dflt := some (.str "null".toList) } .nil
    (.cons { name := "ProtocolType".toList, typ := "string".toList, versions := "5+".toList, nullable := "5+".toList, dflt := some (.str "null".toList), ignorable := true } .nil
    (.cons { name := "ProtocolName".toList, typ := "string".toList, versions := "5+".toList, nullable := "5+".toList, dflt := some (.str "null".toList), ignorable := true } .nil
    (.cons { name := "Assignments".toList, typ := "[]SyncGroupRequestAssignment".toList, versions := "0+".toList }
      (.cons { name := "MemberId".toList, typ := "string".toList, versions := "0+".toList } .nil
      (.cons { name := "Assignment".toList, typ := "bytes".toList, versions := "0+".toList } .nil
      .nil))
    .nil)))))))

/-- assets/protocol_spec/SyncGroupResponse.json -/
def p_SyncGroupResponse : MSpec where
  apiKey := 14
  typ := "response".toList
  name := "SyncGroupResponse".toList
  valid := "0-5".toList
  flex := "4+".toList
  common := []
  fields :=
    (.cons { name := "ThrottleTimeMs".toList, typ := "int32".toList, versions := "1+".toList, ignorable := true } .nil
    (.cons { name := "ErrorCode".toList, typ := "int16".toList, versions := "0+".toList } .nil
    (.cons { name := "ProtocolType".toList, typ := "string".toList, versions := "5+".toList, nullable := "5+".toList, dflt := some (.str "null".toList), ignorable := true } .nil
    (.cons { name := "ProtocolName".toList, typ := "string".toList, versions := "5+".toList, nullable := "5+".toList, dflt := some (.str "null".toList), ignorable := true } .nil
    (.cons { name := "Assignment".toList, typ := "bytes".toList, versions := "0+".toList } .nil
    .nil)))))

/-- assets/protocol_spec/TxnOffsetCommitRequest.json -/
def p_TxnOffsetCommitRequest : MSpec where
  apiKey := 28
  typ := "request".toList
  name := "TxnOffsetCommitRequest".toList
  valid := "0-3".toList
  flex := "3+".toList
  common := []
  fields :=
    (.cons { name := "TransactionalId".toList, typ := "string".toList, versions := "0+".toList } .nil
    (.cons { name := "GroupId".toList, typ := "string".toList, versions := "0+".toList } .nil
    (.cons { name := "ProducerId".toList, typ := "int64".toList, versions := "0+".toList } .nil
    (.cons { name := "ProducerEpoch".toList, typ := "int16".toList, versions := "0+".toList } .nil
    (.cons { name := "GenerationId".toList, typ := "int32".toList, versions := "3+".toList, dflt := some (.str "-1".toList) } .nil
    (.cons { name := "MemberId".toList, typ := "string".toList, versions := "3+".toList, dflt := some (.str "".toList) } .nil
    (.cons { name := "GroupInstanceId".toList, typ := "string".toList, versions := "3+".toList, nullable := "3+".toList, dflt := some (.str "null".toList) } .nil
    (.cons { name := "Topics".toList, typ := "[]TxnOffsetCommitRequestTopic".toList, versions := "0+".toList }
      (.cons { name := "Name".toList, typ := "string".toList, versions := "0+".toList } .nil
      (.cons { name := "Partitions".toList, typ := "[]TxnOffsetCommitRequestPartition".toList, versions := "0+".toList }
        (.cons { name := "PartitionIndex".toList, typ := "int32".toList, versions := "0+".toList } .nil
        (.cons { name := "CommittedOffset".toList, typ := "int64".toList, versions := "0+".toList } .nil
        (.cons { name := "CommittedLeaderEpoch".toList, typ := "int32".toList, versions := "2+".toList, dflt := some (.str "-1".toList), ignorable := true } .nil
        (.cons { name := "CommittedMetadata".toList, typ := "string".toList, versions := "0+".toList, nullable := "0+".toList } .nil
        .nil))))
      .nil))
    .nil))))))))

/-- assets/protocol_spec/TxnOffsetCommitResponse.json -/
def p_TxnOffsetCommitResponse : MSpec where
  apiKey := 28
  typ := "response".toList
  name := "TxnOffsetCommitResponse".toList
  valid := "0-3".toList
  flex := "3+".toList
  common := []
  fields :=
    (.cons { name := "ThrottleTimeMs".toList, typ := "int32".toList, versions := "0+".toList } .nil
    (.cons { name := "Topics".toList, typ := "[]TxnOffsetCommitResponseTopic".toList, versions := "0+".toList }
      (.cons { name := "Name".toList, typ := "string".toList, versions := "0+".toList } .nil
      (.cons { name := "Partitions".toList, typ := "[]TxnOffsetCommitResponsePartition".toList, versions := "0+".toList }
        (.cons { name := "PartitionIndex".toList, typ := "int32".toList, versions := "0+".toList } .nil
        (.cons { name := "ErrorCode".toList, typ := "int16".toList, versions := "0+".toList } .nil
        .nil))
      .nil))
    .nil))

/-- assets/protocol_spec/UnregisterBrokerRequest.json -/
def p_UnregisterBrokerRequest : MSpec where
  apiKey := 64
  typ := "request".toList
  name := "UnregisterBrokerRequest".toList
  valid := "0".toList
  flex := "0+".toList
  common := []
  fields :=
    (.cons { name := "BrokerId".toList, typ := "int32".toList, versions := "0+".toList } .nil
    .nil)

/-- assets/protocol_spec/UnregisterBrokerResponse.json -/
def p_UnregisterBrokerResponse : MSpec where
  apiKey := 64
  typ := "response".toList
  name := "UnregisterBrokerResponse".toList
  valid := "0".toList
  flex := "0+".toList
  common := []
  fields :=
    (.cons { name := "ThrottleTimeMs".toList, typ := "int32".toList, versions := "0+".toList } .nil
    (.cons { name := "ErrorCode".toList, typ := "int16".toList, versions := "0+".toList } .nil
    (.cons { name := "ErrorMessage".toList, typ := "string".toList, versions := "0+".toList, nullable := "0+".toList } .nil
    .nil)))

/-- assets/protocol_spec/UpdateFeaturesRequest.json -/
def p_UpdateFeaturesRequest : MSpec where
  apiKey := 57
  typ := "request".toList
  name := "UpdateFeaturesRequest".toList
  valid := "0-1".toList
  flex := "0+".toList
  common := []
  fields :=
    (.cons { name := "timeoutMs".toList, typ := "int32".toList, versions := "0+".toList, dflt := some (.str "60000".toList) } .nil
    (.cons { name := "FeatureUpdates".toList, typ := "[]FeatureUpdateKey".toList, versions := "0+".toList }
      (.cons { name := "Feature".toList, typ := "string".toList, versions := "0+".toList } .nil
      (.cons { name := "MaxVersionLevel".toList, typ := "int16".toList, versions := "0+".toList } .nil
      (.cons { name := "AllowDowngrade".toList, typ := "bool".toList, versions := "0".toList } .nil
      (.cons { name := "UpgradeType".toList, typ := "int8".toList, versions := "1+".toList, dflt := some (.num (1)) } .nil
      .nil))))
    (.cons { name := "ValidateOnly".toList, typ := "bool".toList, versions := "1+".toList, dflt := some (.bool false) } .nil
    .nil)))

/-- assets/protocol_spec/UpdateFeaturesResponse.json -/
def p_UpdateFeaturesResponse : MSpec where
  apiKey := 57
  typ := "response".toList
  name := "UpdateFeaturesResponse".toList
  valid := "0-1".toList
  flex := "0+".toList
  common := []
  fields :=
    (.cons { name := "ThrottleTimeMs".toList, typ := "int32".toList, versions := "0+".toList } .nil
    (.cons { name := "ErrorCode".toList, typ := "int16".toList, versions := "0+".toList } .nil
    (.cons { name := "ErrorMessage".toList, typ := "string".toList, versions := "0+".toList, nullable := "0+".toList } .nil
    (.cons { name := "Results".toList, typ := "[]UpdatableFeatureResult".toList, versions := "0+".toList }
      (.cons { name := "Feature".toList, typ := "string".toList, versions := "0+".toList } .nil
      (.cons { name := "ErrorCode".toList, typ := "int16".toList, versions := "0+".toList } .nil
      (.cons { name := "ErrorMessage".toList, typ := "string".toList, versions := "0+".toList, nullable := "0+".toList } .nil
      .nil)))
    .nil))))

/-- assets/protocol_spec/UpdateMetadataRequest.json -/
def p_UpdateMetadataRequest : MSpec where
  apiKey := 6
  typ := "request".toList
  name := "UpdateMetadataRequest".toList
  valid := "0-8".toList
  flex := "6+".toList
  common := [("UpdateMetadataPartitionState".toList,
    (.cons { name := "TopicName".toList, typ := "string".toList, versions := "0-4".toList, ignorable := true } .nil
    (.cons { name := "PartitionIndex".toList, typ := "int32".toList, versions := "0+".toList } .nil
    (.cons { name := "ControllerEpoch".toList, typ := "int32".toList, versions := "0+".toList } .nil
    (.cons { name := "Leader".toList, typ := "int32".toList, versions := "0+".toList } .nil
    (.cons { name := "LeaderEpoch".toList, typ := "int32".toList, versions := "0+".toList } .nil
    (.cons { name := "Isr".toList, typ := "[]int32".toList, versions := "0+".toList } .nil
    (.cons { name := "ZkVersion".toList, typ := "int32".toList, versions := "0+".toList } .nil
    (.cons { name := "Replicas".toList, typ := "[]int32".toList, versions := "0+".toList } .nil
    (.cons { name := "OfflineReplicas".toList, typ := "[]int32".toList, versions := "4+".toList, ignorable := true } .nil
    .nil))))))))))]
  fields :=
    (.cons { name := "ControllerId".toList, typ := "int32".toList, versions := "0+".toList } .nil
    (.cons { name := "isKRaftController".toList, typ := "bool".toList, versions := "8+".toList, dflt := some (.str "false".toList) } .nil
    (.cons { name := "ControllerEpoch".toList, typ := "int32".toList, versions := "0+".toList } .nil
    (.cons { name := "BrokerEpoch".toList, typ := "int64".toList, versions := "5+".toList, dflt := some (.str "-1".toList), ignorable := true } .nil
    (.cons { name := "UngroupedPartitionStates".toList, typ := "[]UpdateMetadataPartitionState".toList, versions := "0-4".toList } .nil
    (.cons { name := "TopicStates".toList, typ := "[]UpdateMetadataTopicState".toList, versions := "5+".toList }
      (.cons { name := "TopicName".toList, typ := "string".toList, versions := "5+".toList } .nil
      (.cons { name := "TopicId".toList, typ := "uuid".toList, versions := "7+".toList, ignorable := true } .nil
      (.cons { name := "PartitionStates".toList, typ := "[]UpdateMetadataPartitionState".toList, versions := "5+".toList } .nil
      .nil)))
    (.cons { name := "LiveBrokers".toList, typ := "[]UpdateMetadataBroker".toList, versions := "0+".toList }
      (.cons { name := "Id".toList, typ := "int32".toList, versions := "0+".toList } .nil
      (.cons { name := "V0Host".toList, typ := "string".toList, versions := "0".toList, ignorable := true } .nil
      (.cons { name := "V0Port".toList, typ := "int32".toList, versions := "0".toList, ignorable := true } .nil
      (.cons { name := "Endpoints".toList, typ := "[]UpdateMetadataEndpoint".toList, versions := "1+".toList, ignorable := true }
        (.cons { name := "Port".toList, typ := "int32".toList, versions := "1+".toList } .nil
        (.cons { name := "Host".toList, typ := "string".toList, versions := "1+".toList } .nil
        (.cons { name := "Listener".toList, typ := "string".toList, versions := "3+".toList, ignorable := true } .nil
        (.cons { name := "SecurityProtocol".toList, typ := "int16".toList, versions := "1+".toList } .nil
        .nil))))
      (.cons { name := "Rack".toList, typ := "string".toList, versions := "2+".toList, nullable := "0+".toList, ignorable := true } .nil
      .nil)))))
    .nil)))))))

/-- assets/protocol_spec/UpdateMetadataResponse.json -/
def p_UpdateMetadataResponse : MSpec where
  apiKey := 6
  typ := "response".toList
  name := "UpdateMetadataResponse".toList
  valid := "0-8".toList
  flex := "6+".toList
  common := []
  fields :=
    (.cons { name := "ErrorCode".toList, typ := "int16".toList, versions := "0+".toList } .nil
    .nil)

/-- assets/protocol_spec/VoteRequest.json -/
def p_VoteRequest : MSpec where
  apiKey := 52
  typ := "request".toList
  name := "VoteRequest".toList
  valid := "0".toList
  flex := "0+".toList
  common := []
  fields :=
    (.cons { name := "ClusterId".toList, typ := "string".toList, versions := "0+".toList, nullable := "0+".toList, dflt := some (.str "null".toList) } .nil
    (.cons { name := "Topics".toList, typ := "[]TopicData".toList, versions := "0+".toList }
      (.cons { name := "TopicName".toList, typ := "string".toList, versions := "0+".toList } .nil
      (.cons { name := "Partitions".toList, typ := "[]PartitionData".toList, versions := "0+".toList }
        (.cons { name := "PartitionIndex".toList, typ := "int32".toList, versions := "0+".toList } .nil
        (.cons { name := "CandidateEpoch".toList, typ := "int32".toList, versions := "0+".toList } .nil
        (.cons { name := "CandidateId".toList, typ := "int32".toList, versions := "0+".toList } .nil
        (.cons { name := "LastOffsetEpoch".toList, typ := "int32".toList, versions := "0+".toList } .nil
        (.cons { name := "LastOffset".toList, typ := "int64".toList, versions := "0+".toList } .nil
        .nil)))))
      .nil))
    .nil))

/-- assets/protocol_spec/VoteResponse.json -/
def p_VoteResponse : MSpec where
  apiKey := 52
  typ := "response".toList
  name := "VoteResponse".toList
  valid := "0".toList
  flex := "0+".toList
  common := []
  fields :=
    (.cons { name := "ErrorCode".toList, typ := "int16".toList, versions := "0+".toList } .nil
    (.cons { name := "Topics".toList, typ := "[]TopicData".toList, versions := "0+".toList }
      (.cons { name := "TopicName".toList, typ := "string".toList, versions := "0+".toList } .nil
      (.cons { name := "Partitions".toList, typ := "[]PartitionData".toList, versions := "0+".toList }
        (.cons { name := "PartitionIndex".toList, typ := "int32".toList, versions := "0+".toList } .nil
        (.cons { name := "ErrorCode".toList, typ := "int16".toList, versions := "0+".toList } .nil
        (.cons { name := "LeaderId".toList, typ := "int32".toList, versions := "0+".toList } .nil
        (.cons { name := "LeaderEpoch".toList, typ := "int32".toList, versions := "0+".toList } .nil
        (.cons { name := "VoteGranted".toList, typ := "bool".toList, versions := "0+".toList } .nil
        .nil)))))
      .nil))
    .nil))

/-- assets/protocol_spec/WriteTxnMarkersRequest.json -/
def p_WriteTxnMarkersRequest : MSpec where
  apiKey := 27
  typ := "request".toList
  name := "WriteTxnMarkersRequest".toList
  valid := "0-1".toList
  flex := "1+".toList
  common := []
  fields :=
    (.cons { name := "Markers".toList, typ := "[]WritableTxnMarker".toList, versions := "0+".toList }
      (.cons { name := "ProducerId".toList, typ := "int64".toList, versions := "0+".toList } .nil
      (.cons { name := "ProducerEpoch".toList, typ := "int16".toList, versions := "0+".toList } .nil
      (.cons { name := "TransactionResult".toList, typ := "bool".toList, versions := "0+".toList } .nil
      (.cons { name := "Topics".toList, typ := "[]WritableTxnMarkerTopic".toList, versions := "0+".toList }
        (.cons { name := "Name".toList, typ := "string".toList, versions := "0+".toList } .nil
        (.cons { name := "PartitionIndexes".toList, typ := "[]int32".toList, versions := "0+".toList } .nil
        .nil))
      (.cons { name := "CoordinatorEpoch".toList, typ := "int32".toList, versions := "0+".toList } .nil
      .nil)))))
    .nil)

/-- assets/protocol_spec/WriteTxnMarkersResponse.json -/
def p_WriteTxnMarkersResponse : MSpec where
  apiKey := 27
  typ := "response".toList
  name := "WriteTxnMarkersResponse".toList
  valid := "0-1".toList
  flex := "1+".toList
  common := []
  fields :=
    (.cons { name := "Markers".toList, typ := "[]WritableTxnMarkerResult".toList, versions := "0+".toList }
      (.cons { name := "ProducerId".toList, typ := "int64".toList, versions := "0+".toList } .nil
      (.cons { name := "Topics".toList, typ := "[]WritableTxnMarkerTopicResult".toList, versions := "0+".toList }
        (.cons { name := "Name".toList, typ := "string".toList, versions := "0+".toList } .nil
        (.cons { name := "Partitions".toList, typ := "[]WritableTxnMarkerPartitionResult".toList, versions := "0+".toList }
          (.cons { name := "PartitionIndex".toList, typ := "int32".toList, versions := "0+".toList } .nil
          (.cons { name := "ErrorCode".toList, typ := "int16".toList, versions := "0+".toList } .nil
          .nil))
        .nil))
      .nil))
    .nil)

/-- every header specification (in the order of the generated packages) -/
def headerSpecs : List MSpec := [
  p_RequestHeader, p_ResponseHeader]

/-- every request specification (in the order of the generated packages) -/
def requestSpecs : List MSpec := [
  p_AddOffsetsToTxnRequest, p_AddPartitionsToTxnRequest, p_AllocateProducerIdsRequest, p_AlterClientQuotasRequest, p_AlterConfigsRequest, p_AlterPartitionRequest, p_AlterPartitionReassignmentsRequest, p_AlterReplicaLogDirsRequest, p_AlterUserScramCredentialsRequest, p_ApiVersionsRequest, p_BeginQuorumEpochRequest, p_BrokerHeartbeatRequest, p_BrokerRegistrationRequest, p_ControlledShutdownRequest, p_CreateAclsRequest, p_CreateDelegationTokenRequest, p_CreatePartitionsRequest, p_CreateTopicsRequest, p_DeleteAclsRequest, p_DeleteGroupsRequest, p_DeleteRecordsRequest, p_DeleteTopicsRequest, p_DescribeAclsRequest, p_DescribeClientQuotasRequest, p_DescribeClusterRequest, p_DescribeConfigsRequest, p_DescribeDelegationTokenRequest, p_DescribeGroupsRequest, p_DescribeLogDirsRequest, p_DescribeProducersRequest, p_DescribeQuorumRequest, p_DescribeTransactionsRequest, p_DescribeUserScramCredentialsRequest, p_ElectLeadersRequest, p_EndQuorumEpochRequest, p_EndTxnRequest, p_EnvelopeRequest, p_ExpireDelegationTokenRequest, p_FetchRequest, p_FetchSnapshotRequest, p_FindCoordinatorRequest, p_HeartbeatRequest, p_IncrementalAlterConfigsRequest, p_InitProducerIdRequest, p_JoinGroupRequest, p_LeaderAndIsrRequest, p_LeaveGroupRequest, p_ListGroupsRequest, p_ListOffsetsRequest, p_ListPartitionReassignmentsRequest, p_ListTransactionsRequest, p_MetadataRequest, p_OffsetCommitRequest, p_OffsetDeleteRequest, p_OffsetFetchRequest, p_OffsetForLeaderEpochRequest, p_ProduceRequest, p_RenewDelegationTokenRequest, p_SaslAuthenticateRequest, p_SaslHandshakeRequest, p_StopReplicaRequest, p_SyncGroupRequest, p_TxnOffsetCommitRequest, p_UnregisterBrokerRequest, p_UpdateFeaturesRequest, p_UpdateMetadataRequest, p_VoteRequest, p_WriteTxnMarkersRequest]

/-- every response specification (in the order of the generated packages) -/
def responseSpecs : List MSpec := [
  p_AddOffsetsToTxnResponse, p_AddPartitionsToTxnResponse, p_AllocateProducerIdsResponse, p_AlterClientQuotasResponse, p_AlterConfigsResponse, p_AlterPartitionResponse, p_AlterPartitionReassignmentsResponse, p_AlterReplicaLogDirsResponse, p_AlterUserScramCredentialsResponse, p_ApiVersionsResponse, p_BeginQuorumEpochResponse, p_BrokerHeartbeatResponse, p_BrokerRegistrationResponse, p_ControlledShutdownResponse, p_CreateAclsResponse, p_CreateDelegationTokenResponse, p_CreatePartitionsResponse, p_CreateTopicsResponse, p_DeleteAclsResponse, p_DeleteGroupsResponse, p_DeleteRecordsResponse, p_DeleteTopicsResponse, p_DescribeAclsResponse, p_DescribeClientQuotasResponse, p_DescribeClusterResponse, p_DescribeConfigsResponse, p_DescribeDelegationTokenResponse, p_DescribeGroupsResponse, p_DescribeLogDirsResponse, p_DescribeProducersResponse, p_DescribeQuorumResponse, p_DescribeTransactionsResponse, p_DescribeUserScramCredentialsResponse, p_ElectLeadersResponse, p_EndQuorumEpochResponse, p_EndTxnResponse, p_EnvelopeResponse, p_ExpireDelegationTokenResponse, p_FetchResponse, p_FetchSnapshotResponse, p_FindCoordinatorResponse, p_HeartbeatResponse, p_IncrementalAlterConfigsResponse, p_InitProducerIdResponse, p_JoinGroupResponse, p_LeaderAndIsrResponse, p_LeaveGroupResponse, p_ListGroupsResponse, p_ListOffsetsResponse, p_ListPartitionReassignmentsResponse, p_ListTransactionsResponse, p_MetadataResponse, p_OffsetCommitResponse, p_OffsetDeleteResponse, p_OffsetFetchResponse, p_OffsetForLeaderEpochResponse, p_ProduceResponse, p_RenewDelegationTokenResponse, p_SaslAuthenticateResponse, p_SaslHandshakeResponse, p_StopReplicaResponse, p_SyncGroupResponse, p_TxnOffsetCommitResponse, p_UnregisterBrokerResponse, p_UpdateFeaturesResponse, p_UpdateMetadataResponse, p_VoteResponse, p_WriteTxnMarkersResponse]

end Verif.Kafka.Gen
