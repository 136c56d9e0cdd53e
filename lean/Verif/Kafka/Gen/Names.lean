import Verif.Kafka.Generator
/- Generated by tools/extract_messages.py from components/kafka-protocol-go/pkg/protocol/messages: the names of the
accessor methods of every message, with those of its structures. Do not edit. -/
namespace Verif.Kafka.Gen
open Verif.Kafka

/-- components/kafka-protocol-go/pkg/protocol/messages/addoffsetstotxn/request.go -/
def n_addoffsetstotxn_Request : NT :=
  (.cons "TransactionalId".toList .nil
  (.cons "ProducerId".toList .nil
  (.cons "ProducerEpoch".toList .nil
  (.cons "GroupId".toList .nil
  .nil))))

/-- components/kafka-protocol-go/pkg/protocol/messages/addoffsetstotxn/response.go -/
def n_addoffsetstotxn_Response : NT :=
  (.cons "ThrottleTimeMs".toList .nil
  (.cons "ErrorCode".toList .nil
  .nil))

/-- components/kafka-protocol-go/pkg/protocol/messages/addpartitionstotxn/request.go -/
def n_addpartitionstotxn_Request : NT :=
  (.cons "TransactionalId".toList .nil
  (.cons "ProducerId".toList .nil
  (.cons "ProducerEpoch".toList .nil
  (.cons "Topics".toList (.cons "Name".toList .nil
  (.cons "Partitions".toList .nil
  .nil))
  .nil))))

/-- components/kafka-protocol-go/pkg/protocol/messages/addpartitionstotxn/response.go -/
def n_addpartitionstotxn_Response : NT :=
  (.cons "ThrottleTimeMs".toList .nil
  (.cons "Results".toList (.cons "Name".toList .nil
  (.cons "Results".toList (.cons "PartitionIndex".toList .nil
  (.cons "ErrorCode".toList .nil
  .nil))
  .nil))
  .nil))

/-- components/kafka-protocol-go/pkg/protocol/messages/allocateproducerids/request.go -/
def n_allocateproducerids_Request : NT :=
  (.cons "BrokerId".toList .nil
  (.cons "BrokerEpoch".toList .nil
  .nil))

/-- components/kafka-protocol-go/pkg/protocol/messages/allocateproducerids/response.go -/
def n_allocateproducerids_Response : NT :=
  (.cons "ThrottleTimeMs".toList .nil
  (.cons "ErrorCode".toList .nil
  (.cons "ProducerIdStart".toList .nil
  (.cons "ProducerIdLen".toList .nil
  .nil))))

/-- components/kafka-protocol-go/pkg/protocol/messages/alterclientquotas/request.go -/
def n_alterclientquotas_Request : NT :=
  (.cons "Entries".toList (.cons "Entity".toList (.cons "EntityType".toList .nil
  (.cons "EntityName".toList .nil
  .nil))
  (.cons "Ops".toList (.cons "Key".toList .nil
  (.cons "Value".toList .nil
  (.cons "Remove".toList .nil
  .nil)))
  .nil))
  (.cons "ValidateOnly".toList .nil
  .nil))

/-- components/kafka-protocol-go/pkg/protocol/messages/alterclientquotas/response.go -/
def n_alterclientquotas_Response : NT :=
  (.cons "ThrottleTimeMs".toList .nil
  (.cons "Entries".toList (.cons "ErrorCode".toList .nil
  (.cons "ErrorMessage".toList .nil
  (.cons "Entity".toList (.cons "EntityType".toList .nil
  (.cons "EntityName".toList .nil
  .nil))
  .nil)))
  .nil))

/-- components/kafka-protocol-go/pkg/protocol/messages/alterconfigs/request.go -/
def n_alterconfigs_Request : NT :=
  (.cons "Resources".toList (.cons "ResourceType".toList .nil
  (.cons "ResourceName".toList .nil
  (.cons "Configs".toList (.cons "Name".toList .nil
  (.cons "Value".toList .nil
  .nil))
  .nil)))
  (.cons "ValidateOnly".toList .nil
  .nil))

/-- components/kafka-protocol-go/pkg/protocol/messages/alterconfigs/response.go -/
def n_alterconfigs_Response : NT :=
  (.cons "ThrottleTimeMs".toList .nil
  (.cons "Responses".toList (.cons "ErrorCode".toList .nil
  (.cons "ErrorMessage".toList .nil
  (.cons "ResourceType".toList .nil
  (.cons "ResourceName".toList .nil
  .nil))))
  .nil))

/-- components/kafka-protocol-go/pkg/protocol/messages/alterpartition/request.go -/
def n_alterpartition_Request : NT :=
  (.cons "BrokerId".toList .nil
  (.cons "BrokerEpoch".toList .nil
  (.cons "Topics".toList (.cons "TopicName".toList .nil
  (.cons "TopicId".toList .nil
  (.cons "Partitions".toList (.cons "PartitionIndex".toList .nil
  (.cons "LeaderEpoch".toList .nil
  (.cons "NewIsr".toList .nil
  (.cons "LeaderRecoveryState".toList .nil
  (.cons "PartitionEpoch".toList .nil
  .nil)))))
  .nil)))
  .nil)))

/-- components/kafka-protocol-go/pkg/protocol/messages/alterpartition/response.go -/
def n_alterpartition_Response : NT :=
  (.cons "ThrottleTimeMs".toList .nil
  (.cons "ErrorCode".toList .nil
  (.cons "Topics".toList (.cons "TopicName".toList .nil
  (.cons "TopicId".toList .nil
  (.cons "Partitions".toList (.cons "PartitionIndex".toList .nil
  (.cons "ErrorCode".toList .nil
  (.cons "LeaderId".toList .nil
  (.cons "LeaderEpoch".toList .nil
  (.cons "Isr".toList .nil
  (.cons "LeaderRecoveryState".toList .nil
  (.cons "PartitionEpoch".toList .nil
  .nil)))))))
  .nil)))
  .nil)))

/-- components/kafka-protocol-go/pkg/protocol/messages/alterpartitionreassignments/request.go -/
def n_alterpartitionreassignments_Request : NT :=
  (.cons "TimeoutMs".toList .nil
  (.cons "Topics".toList (.cons "Name".toList .nil
  (.cons "Partitions".toList (.cons "PartitionIndex".toList .nil
  (.cons "Replicas".toList .nil
  .nil))
  .nil))
  .nil))

/-- components/kafka-protocol-go/pkg/protocol/messages/alterpartitionreassignments/response.go -/
def n_alterpartitionreassignments_Response : NT :=
  (.cons "ThrottleTimeMs".toList .nil
  (.cons "ErrorCode".toList .nil
  (.cons "ErrorMessage".toList .nil
  (.cons "Responses".toList (.cons "Name".toList .nil
  (.cons "Partitions".toList (.cons "PartitionIndex".toList .nil
  (.cons "ErrorCode".toList .nil
  (.cons "ErrorMessage".toList .nil
  .nil)))
  .nil))
  .nil))))

/-- components/kafka-protocol-go/pkg/protocol/messages/alterreplicalogdirs/request.go -/
def n_alterreplicalogdirs_Request : NT :=
  (.cons "Dirs".toList (.cons "Path".toList .nil
  (.cons "Topics".toList (.cons "Name".toList .nil
  (.cons "Partitions".toList .nil
  .nil))
  .nil))
  .nil)

/-- components/kafka-protocol-go/pkg/protocol/messages/alterreplicalogdirs/response.go -/
def n_alterreplicalogdirs_Response : NT :=
  (.cons "ThrottleTimeMs".toList .nil
  (.cons "Results".toList (.cons "TopicName".toList .nil
  (.cons "Partitions".toList (.cons "PartitionIndex".toList .nil
  (.cons "ErrorCode".toList .nil
  .nil))
  .nil))
  .nil))

/-- components/kafka-protocol-go/pkg/protocol/messages/alteruserscramcredentials/request.go -/
def n_alteruserscramcredentials_Request : NT :=
  (.cons "Deletions".toList (.cons "Name".toList .nil
  (.cons "Mechanism".toList .nil
  .nil))
  (.cons "Upsertions".toList (.cons "Name".toList .nil
  (.cons "Mechanism".toList .nil
  (.cons "Iterations".toList .nil
  (.cons "Salt".toList .nil
  (.cons "SaltedPassword".toList .nil
  .nil)))))
  .nil))

/-- components/kafka-protocol-go/pkg/protocol/messages/alteruserscramcredentials/response.go -/
def n_alteruserscramcredentials_Response : NT :=
  (.cons "ThrottleTimeMs".toList .nil
  (.cons "Results".toList (.cons "User".toList .nil
  (.cons "ErrorCode".toList .nil
  (.cons "ErrorMessage".toList .nil
  .nil)))
  .nil))

/-- components/kafka-protocol-go/pkg/protocol/messages/apiversions/request.go -/
def n_apiversions_Request : NT :=
  (.cons "ClientSoftwareName".toList .nil
  (.cons "ClientSoftwareVersion".toList .nil
  .nil))

/-- components/kafka-protocol-go/pkg/protocol/messages/apiversions/response.go -/
def n_apiversions_Response : NT :=
  (.cons "ErrorCode".toList .nil
  (.cons "ApiKeys".toList (.cons "ApiKey".toList .nil
  (.cons "MinVersion".toList .nil
  (.cons "MaxVersion".toList .nil
  .nil)))
  (.cons "ThrottleTimeMs".toList .nil
  (.cons "SupportedFeatures".toList (.cons "Name".toList .nil
  (.cons "MinVersion".toList .nil
  (.cons "MaxVersion".toList .nil
  .nil)))
  (.cons "FinalizedFeaturesEpoch".toList .nil
  (.cons "FinalizedFeatures".toList (.cons "Name".toList .nil
  (.cons "MaxVersionLevel".toList .nil
  (.cons "MinVersionLevel".toList .nil
  .nil)))
  (.cons "ZkMigrationReady".toList .nil
  .nil)))))))

/-- components/kafka-protocol-go/pkg/protocol/messages/beginquorumepoch/request.go -/
def n_beginquorumepoch_Request : NT :=
  (.cons "ClusterId".toList .nil
  (.cons "Topics".toList (.cons "TopicName".toList .nil
  (.cons "Partitions".toList (.cons "PartitionIndex".toList .nil
  (.cons "LeaderId".toList .nil
  (.cons "LeaderEpoch".toList .nil
  .nil)))
  .nil))
  .nil))

/-- components/kafka-protocol-go/pkg/protocol/messages/beginquorumepoch/response.go -/
def n_beginquorumepoch_Response : NT :=
  (.cons "ErrorCode".toList .nil
  (.cons "Topics".toList (.cons "TopicName".toList .nil
  (.cons "Partitions".toList (.cons "PartitionIndex".toList .nil
  (.cons "ErrorCode".toList .nil
  (.cons "LeaderId".toList .nil
  (.cons "LeaderEpoch".toList .nil
  .nil))))
  .nil))
  .nil))

/-- components/kafka-protocol-go/pkg/protocol/messages/brokerheartbeat/request.go -/
def n_brokerheartbeat_Request : NT :=
  (.cons "BrokerId".toList .nil
  (.cons "BrokerEpoch".toList .nil
  (.cons "CurrentMetadataOffset".toList .nil
  (.cons "WantFence".toList .nil
  (.cons "WantShutDown".toList .nil
  .nil)))))

/-- components/kafka-protocol-go/pkg/protocol/messages/brokerheartbeat/response.go -/
def n_brokerheartbeat_Response : NT :=
  (.cons "ThrottleTimeMs".toList .nil
  (.cons "ErrorCode".toList .nil
  (.cons "IsCaughtUp".toList .nil
  (.cons "IsFenced".toList .nil
  (.cons "ShouldShutDown".toList .nil
  .nil)))))

/-- components/kafka-protocol-go/pkg/protocol/messages/brokerregistration/request.go -/
def n_brokerregistration_Request : NT :=
  (.cons "BrokerId".toList .nil
  (.cons "ClusterId".toList .nil
  (.cons "IncarnationId".toList .nil
  (.cons "Listeners".toList (.cons "Name".toList .nil
  (.cons "Host".toList .nil
  (.cons "Port".toList .nil
  (.cons "SecurityProtocol".toList .nil
  .nil))))
  (.cons "Features".toList (.cons "Name".toList .nil
  (.cons "MinSupportedVersion".toList .nil
  (.cons "MaxSupportedVersion".toList .nil
  .nil)))
  (.cons "Rack".toList .nil
  (.cons "IsMigratingZkBroker".toList .nil
  .nil)))))))

/-- components/kafka-protocol-go/pkg/protocol/messages/brokerregistration/response.go -/
def n_brokerregistration_Response : NT :=
  (.cons "ThrottleTimeMs".toList .nil
  (.cons "ErrorCode".toList .nil
  (.cons "BrokerEpoch".toList .nil
  .nil)))

/-- components/kafka-protocol-go/pkg/protocol/messages/controlledshutdown/request.go -/
def n_controlledshutdown_Request : NT :=
  (.cons "BrokerId".toList .nil
  (.cons "BrokerEpoch".toList .nil
  .nil))

/-- components/kafka-protocol-go/pkg/protocol/messages/controlledshutdown/response.go -/
def n_controlledshutdown_Response : NT :=
  (.cons "ErrorCode".toList .nil
  (.cons "RemainingPartitions".toList (.cons "TopicName".toList .nil
  (.cons "PartitionIndex".toList .nil
  .nil))
  .nil))

/-- components/kafka-protocol-go/pkg/protocol/messages/createacls/request.go -/
def n_createacls_Request : NT :=
  (.cons "Creations".toList (.cons "ResourceType".toList .nil
  (.cons "ResourceName".toList .nil
  (.cons "ResourcePatternType".toList .nil
  (.cons "Principal".toList .nil
  (.cons "Host".toList .nil
  (.cons "Operation".toList .nil
  (.cons "PermissionType".toList .nil
  .nil)))))))
  .nil)

/-- components/kafka-protocol-go/pkg/protocol/messages/createacls/response.go -/
def n_createacls_Response : NT :=
  (.cons "ThrottleTimeMs".toList .nil
  (.cons "Results".toList (.cons "ErrorCode".toList .nil
  (.cons "ErrorMessage".toList .nil
  .nil))
  .nil))

/-- components/kafka-protocol-go/pkg/protocol/messages/createdelegationtoken/request.go -/
def n_createdelegationtoken_Request : NT :=
  (.cons "OwnerPrincipalType".toList .nil
  (.cons "OwnerPrincipalName".toList .nil
  (.cons "Renewers".toList (.cons "PrincipalType".toList .nil
  (.cons "PrincipalName".toList .nil
  .nil))
  (.cons "MaxLifetimeMs".toList .nil
  .nil))))

/-- components/kafka-protocol-go/pkg/protocol/messages/createdelegationtoken/response.go -/
def n_createdelegationtoken_Response : NT :=
  (.cons "ErrorCode".toList .nil
  (.cons "PrincipalType".toList .nil
  (.cons "PrincipalName".toList .nil
  (.cons "TokenRequesterPrincipalType".toList .nil
  (.cons "TokenRequesterPrincipalName".toList .nil
  (.cons "IssueTimestampMs".toList .nil
  (.cons "ExpiryTimestampMs".toList .nil
  (.cons "MaxTimestampMs".toList .nil
  (.cons "TokenId".toList .nil
  (.cons "Hmac".toList .nil
  (.cons "ThrottleTimeMs".toList .nil
  .nil)))))))))))

/-- components/kafka-protocol-go/pkg/protocol/messages/createpartitions/request.go -/
def n_createpartitions_Request : NT :=
  (.cons "Topics".toList (.cons "Name".toList .nil
  (.cons "Count".toList .nil
  (.cons "Assignments".toList (.cons "BrokerIds".toList .nil
  .nil)
  .nil)))
  (.cons "TimeoutMs".toList .nil
  (.cons "ValidateOnly".toList .nil
  .nil)))

/-- components/kafka-protocol-go/pkg/protocol/messages/createpartitions/response.go -/
def n_createpartitions_Response : NT :=
  (.cons "ThrottleTimeMs".toList .nil
  (.cons "Results".toList (.cons "Name".toList .nil
  (.cons "ErrorCode".toList .nil
  (.cons "ErrorMessage".toList .nil
  .nil)))
  .nil))

/-- components/kafka-protocol-go/pkg/protocol/messages/createtopics/request.go -/
def n_createtopics_Request : NT :=
  (.cons "Topics".toList (.cons "Name".toList .nil
  (.cons "NumPartitions".toList .nil
  (.cons "ReplicationFactor".toList .nil
  (.cons "Assignments".toList (.cons "PartitionIndex".toList .nil
  (.cons "BrokerIds".toList .nil
  .nil))
  (.cons "Configs".toList (.cons "Name".toList .nil
  (.cons "Value".toList .nil
  .nil))
  .nil)))))
  (.cons "TimeoutMs".toList .nil
  (.cons "ValidateOnly".toList .nil
  .nil)))

/-- components/kafka-protocol-go/pkg/protocol/messages/createtopics/response.go -/
def n_createtopics_Response : NT :=
  (.cons "ThrottleTimeMs".toList .nil
  (.cons "Topics".toList (.cons "Name".toList .nil
  (.cons "TopicId".toList .nil
  (.cons "ErrorCode".toList .nil
  (.cons "ErrorMessage".toList .nil
  (.cons "TopicConfigErrorCode".toList .nil
  (.cons "NumPartitions".toList .nil
  (.cons "ReplicationFactor".toList .nil
  (.cons "Configs".toList (.cons "Name".toList .nil
  (.cons "Value".toList .nil
  (.cons "ReadOnly".toList .nil
  (.cons "ConfigSource".toList .nil
  (.cons "IsSensitive".toList .nil
  .nil)))))
  .nil))))))))
  .nil))

/-- components/kafka-protocol-go/pkg/protocol/messages/deleteacls/request.go -/
def n_deleteacls_Request : NT :=
  (.cons "Filters".toList (.cons "ResourceTypeFilter".toList .nil
  (.cons "ResourceNameFilter".toList .nil
  (.cons "PatternTypeFilter".toList .nil
  (.cons "PrincipalFilter".toList .nil
  (.cons "HostFilter".toList .nil
  (.cons "Operation".toList .nil
  (.cons "PermissionType".toList .nil
  .nil)))))))
  .nil)

/-- components/kafka-protocol-go/pkg/protocol/messages/deleteacls/response.go -/
def n_deleteacls_Response : NT :=
  (.cons "ThrottleTimeMs".toList .nil
  (.cons "FilterResults".toList (.cons "ErrorCode".toList .nil
  (.cons "ErrorMessage".toList .nil
  (.cons "MatchingAcls".toList (.cons "ErrorCode".toList .nil
  (.cons "ErrorMessage".toList .nil
  (.cons "ResourceType".toList .nil
  (.cons "ResourceName".toList .nil
  (.cons "PatternType".toList .nil
  (.cons "Principal".toList .nil
  (.cons "Host".toList .nil
  (.cons "Operation".toList .nil
  (.cons "PermissionType".toList .nil
  .nil)))))))))
  .nil)))
  .nil))

/-- components/kafka-protocol-go/pkg/protocol/messages/deletegroups/request.go -/
def n_deletegroups_Request : NT :=
  (.cons "GroupsNames".toList .nil
  .nil)

/-- components/kafka-protocol-go/pkg/protocol/messages/deletegroups/response.go -/
def n_deletegroups_Response : NT :=
  (.cons "ThrottleTimeMs".toList .nil
  (.cons "Results".toList (.cons "GroupId".toList .nil
  (.cons "ErrorCode".toList .nil
  .nil))
  .nil))

/-- components/kafka-protocol-go/pkg/protocol/messages/deleterecords/request.go -/
def n_deleterecords_Request : NT :=
  (.cons "Topics".toList (.cons "Name".toList .nil
  (.cons "Partitions".toList (.cons "PartitionIndex".toList .nil
  (.cons "Offset".toList .nil
  .nil))
  .nil))
  (.cons "TimeoutMs".toList .nil
  .nil))

/-- components/kafka-protocol-go/pkg/protocol/messages/deleterecords/response.go -/
def n_deleterecords_Response : NT :=
  (.cons "ThrottleTimeMs".toList .nil
  (.cons "Topics".toList (.cons "Name".toList .nil
  (.cons "Partitions".toList (.cons "PartitionIndex".toList .nil
  (.cons "LowWatermark".toList .nil
  (.cons "ErrorCode".toList .nil
  .nil)))
  .nil))
  .nil))

/-- components/kafka-protocol-go/pkg/protocol/messages/deletetopics/request.go -/
def n_deletetopics_Request : NT :=
  (.cons "Topics".toList (.cons "Name".toList .nil
  (.cons "TopicId".toList .nil
  .nil))
  (.cons "TopicNames".toList .nil
  (.cons "TimeoutMs".toList .nil
  .nil)))

/-- components/kafka-protocol-go/pkg/protocol/messages/deletetopics/response.go -/
def n_deletetopics_Response : NT :=
  (.cons "ThrottleTimeMs".toList .nil
  (.cons "Responses".toList (.cons "Name".toList .nil
  (.cons "TopicId".toList .nil
  (.cons "ErrorCode".toList .nil
  (.cons "ErrorMessage".toList .nil
  .nil))))
  .nil))

/-- components/kafka-protocol-go/pkg/protocol/messages/describeacls/request.go -/
def n_describeacls_Request : NT :=
  (.cons "ResourceTypeFilter".toList .nil
  (.cons "ResourceNameFilter".toList .nil
  (.cons "PatternTypeFilter".toList .nil
  (.cons "PrincipalFilter".toList .nil
  (.cons "HostFilter".toList .nil
  (.cons "Operation".toList .nil
  (.cons "PermissionType".toList .nil
  .nil)))))))

/-- components/kafka-protocol-go/pkg/protocol/messages/describeacls/response.go -/
def n_describeacls_Response : NT :=
  (.cons "ThrottleTimeMs".toList .nil
  (.cons "ErrorCode".toList .nil
  (.cons "ErrorMessage".toList .nil
  (.cons "Resources".toList (.cons "ResourceType".toList .nil
  (.cons "ResourceName".toList .nil
  (.cons "PatternType".toList .nil
  (.cons "Acls".toList (.cons "Principal".toList .nil
  (.cons "Host".toList .nil
  (.cons "Operation".toList .nil
  (.cons "PermissionType".toList .nil
  .nil))))
  .nil))))
  .nil))))

/-- components/kafka-protocol-go/pkg/protocol/messages/describeclientquotas/request.go -/
def n_describeclientquotas_Request : NT :=
  (.cons "Components".toList (.cons "EntityType".toList .nil
  (.cons "MatchType".toList .nil
  (.cons "Match".toList .nil
  .nil)))
  (.cons "Strict".toList .nil
  .nil))

/-- components/kafka-protocol-go/pkg/protocol/messages/describeclientquotas/response.go -/
def n_describeclientquotas_Response : NT :=
  (.cons "ThrottleTimeMs".toList .nil
  (.cons "ErrorCode".toList .nil
  (.cons "ErrorMessage".toList .nil
  (.cons "Entries".toList (.cons "Entity".toList (.cons "EntityType".toList .nil
  (.cons "EntityName".toList .nil
  .nil))
  (.cons "Values".toList (.cons "Key".toList .nil
  (.cons "Value".toList .nil
  .nil))
  .nil))
  .nil))))

/-- components/kafka-protocol-go/pkg/protocol/messages/describecluster/request.go -/
def n_describecluster_Request : NT :=
  (.cons "IncludeClusterAuthorizedOperations".toList .nil
  .nil)

/-- components/kafka-protocol-go/pkg/protocol/messages/describecluster/response.go -/
def n_describecluster_Response : NT :=
  (.cons "ThrottleTimeMs".toList .nil
  (.cons "ErrorCode".toList .nil
  (.cons "ErrorMessage".toList .nil
  (.cons "ClusterId".toList .nil
  (.cons "ControllerId".toList .nil
  (.cons "Brokers".toList (.cons "BrokerId".toList .nil
  (.cons "Host".toList .nil
  (.cons "Port".toList .nil
  (.cons "Rack".toList .nil
  .nil))))
  (.cons "ClusterAuthorizedOperations".toList .nil
  .nil)))))))

/-- components/kafka-protocol-go/pkg/protocol/messages/describeconfigs/request.go -/
def n_describeconfigs_Request : NT :=
  (.cons "Resources".toList (.cons "ResourceType".toList .nil
  (.cons "ResourceName".toList .nil
  (.cons "ConfigurationKeys".toList .nil
  .nil)))
  (.cons "IncludeSynonyms".toList .nil
  (.cons "IncludeDocumentation".toList .nil
  .nil)))

/-- components/kafka-protocol-go/pkg/protocol/messages/describeconfigs/response.go -/
def n_describeconfigs_Response : NT :=
  (.cons "ThrottleTimeMs".toList .nil
  (.cons "Results".toList (.cons "ErrorCode".toList .nil
  (.cons "ErrorMessage".toList .nil
  (.cons "ResourceType".toList .nil
  (.cons "ResourceName".toList .nil
  (.cons "Configs".toList (.cons "Name".toList .nil
  (.cons "Value".toList .nil
  (.cons "ReadOnly".toList .nil
  (.cons "IsDefault".toList .nil
  (.cons "ConfigSource".toList .nil
  (.cons "IsSensitive".toList .nil
  (.cons "Synonyms".toList (.cons "Name".toList .nil
  (.cons "Value".toList .nil
  (.cons "Source".toList .nil
  .nil)))
  (.cons "ConfigType".toList .nil
  (.cons "Documentation".toList .nil
  .nil)))))))))
  .nil)))))
  .nil))

/-- components/kafka-protocol-go/pkg/protocol/messages/describedelegationtoken/request.go -/
def n_describedelegationtoken_Request : NT :=
  (.cons "Owners".toList (.cons "PrincipalType".toList .nil
  (.cons "PrincipalName".toList .nil
  .nil))
  .nil)

/-- components/kafka-protocol-go/pkg/protocol/messages/describedelegationtoken/response.go -/
def n_describedelegationtoken_Response : NT :=
  (.cons "ErrorCode".toList .nil
  (.cons "Tokens".toList (.cons "PrincipalType".toList .nil
  (.cons "PrincipalName".toList .nil
  (.cons "TokenRequesterPrincipalType".toList .nil
  (.cons "TokenRequesterPrincipalName".toList .nil
  (.cons "IssueTimestamp".toList .nil
  (.cons "ExpiryTimestamp".toList .nil
  (.cons "MaxTimestamp".toList .nil
  (.cons "TokenId".toList .nil
  (.cons "Hmac".toList .nil
  (.cons "Renewers".toList (.cons "PrincipalType".toList .nil
  (.cons "PrincipalName".toList .nil
  .nil))
  .nil))))))))))
  (.cons "ThrottleTimeMs".toList .nil
  .nil)))

/-- components/kafka-protocol-go/pkg/protocol/messages/describegroups/request.go -/
def n_describegroups_Request : NT :=
  (.cons "Groups".toList .nil
  (.cons "IncludeAuthorizedOperations".toList .nil
  .nil))

/-- components/kafka-protocol-go/pkg/protocol/messages/describegroups/response.go -/
def n_describegroups_Response : NT :=
  (.cons "ThrottleTimeMs".toList .nil
  (.cons "Groups".toList (.cons "ErrorCode".toList .nil
  (.cons "GroupId".toList .nil
  (.cons "GroupState".toList .nil
  (.cons "ProtocolType".toList .nil
  (.cons "ProtocolData".toList .nil
  (.cons "Members".toList (.cons "MemberId".toList .nil
  (.cons "GroupInstanceId".toList .nil
  (.cons "ClientId".toList .nil
  (.cons "ClientHost".toList .nil
  (.cons "MemberMetadata".toList .nil
  (.cons "MemberAssignment".toList .nil
  .nil))))))
  (.cons "AuthorizedOperations".toList .nil
  .nil)))))))
  .nil))

/-- components/kafka-protocol-go/pkg/protocol/messages/describelogdirs/request.go -/
def n_describelogdirs_Request : NT :=
  (.cons "Topics".toList (.cons "Topic".toList .nil
  (.cons "Partitions".toList .nil
  .nil))
  .nil)

/-- components/kafka-protocol-go/pkg/protocol/messages/describelogdirs/response.go -/
def n_describelogdirs_Response : NT :=
  (.cons "ThrottleTimeMs".toList .nil
  (.cons "ErrorCode".toList .nil
  (.cons "Results".toList (.cons "ErrorCode".toList .nil
  (.cons "LogDir".toList .nil
  (.cons "Topics".toList (.cons "Name".toList .nil
  (.cons "Partitions".toList (.cons "PartitionIndex".toList .nil
  (.cons "PartitionSize".toList .nil
  (.cons "OffsetLag".toList .nil
  (.cons "IsFutureKey".toList .nil
  .nil))))
  .nil))
  (.cons "TotalBytes".toList .nil
  (.cons "UsableBytes".toList .nil
  .nil)))))
  .nil)))

/-- components/kafka-protocol-go/pkg/protocol/messages/describeproducers/request.go -/
def n_describeproducers_Request : NT :=
  (.cons "Topics".toList (.cons "Name".toList .nil
  (.cons "PartitionIndexes".toList .nil
  .nil))
  .nil)

/-- components/kafka-protocol-go/pkg/protocol/messages/describeproducers/response.go -/
def n_describeproducers_Response : NT :=
  (.cons "ThrottleTimeMs".toList .nil
  (.cons "Topics".toList (.cons "Name".toList .nil
  (.cons "Partitions".toList (.cons "PartitionIndex".toList .nil
  (.cons "ErrorCode".toList .nil
  (.cons "ErrorMessage".toList .nil
  (.cons "ActiveProducers".toList (.cons "ProducerId".toList .nil
  (.cons "ProducerEpoch".toList .nil
  (.cons "LastSequence".toList .nil
  (.cons "LastTimestamp".toList .nil
  (.cons "CoordinatorEpoch".toList .nil
  (.cons "CurrentTxnStartOffset".toList .nil
  .nil))))))
  .nil))))
  .nil))
  .nil))

/-- components/kafka-protocol-go/pkg/protocol/messages/describequorum/request.go -/
def n_describequorum_Request : NT :=
  (.cons "Topics".toList (.cons "TopicName".toList .nil
  (.cons "Partitions".toList (.cons "PartitionIndex".toList .nil
  .nil)
  .nil))
  .nil)

/-- components/kafka-protocol-go/pkg/protocol/messages/describequorum/response.go -/
def n_describequorum_Response : NT :=
  (.cons "ErrorCode".toList .nil
  (.cons "Topics".toList (.cons "TopicName".toList .nil
  (.cons "Partitions".toList (.cons "PartitionIndex".toList .nil
  (.cons "ErrorCode".toList .nil
  (.cons "LeaderId".toList .nil
  (.cons "LeaderEpoch".toList .nil
  (.cons "HighWatermark".toList .nil
  (.cons "CurrentVoters".toList (.cons "ReplicaId".toList .nil
  (.cons "LogEndOffset".toList .nil
  (.cons "LastFetchTimestamp".toList .nil
  (.cons "LastCaughtUpTimestamp".toList .nil
  .nil))))
  (.cons "Observers".toList (.cons "ReplicaId".toList .nil
  (.cons "LogEndOffset".toList .nil
  (.cons "LastFetchTimestamp".toList .nil
  (.cons "LastCaughtUpTimestamp".toList .nil
  .nil))))
  .nil)))))))
  .nil))
  .nil))

/-- components/kafka-protocol-go/pkg/protocol/messages/describetransactions/request.go -/
def n_describetransactions_Request : NT :=
  (.cons "TransactionalIds".toList .nil
  .nil)

/-- components/kafka-protocol-go/pkg/protocol/messages/describetransactions/response.go -/
def n_describetransactions_Response : NT :=
  (.cons "ThrottleTimeMs".toList .nil
  (.cons "TransactionStates".toList (.cons "ErrorCode".toList .nil
  (.cons "TransactionalId".toList .nil
  (.cons "TransactionState".toList .nil
  (.cons "TransactionTimeoutMs".toList .nil
  (.cons "TransactionStartTimeMs".toList .nil
  (.cons "ProducerId".toList .nil
  (.cons "ProducerEpoch".toList .nil
  (.cons "Topics".toList (.cons "Topic".toList .nil
  (.cons "Partitions".toList .nil
  .nil))
  .nil))))))))
  .nil))

/-- components/kafka-protocol-go/pkg/protocol/messages/describeuserscramcredentials/request.go -/
def n_describeuserscramcredentials_Request : NT :=
  (.cons "Users".toList (.cons "Name".toList .nil
  .nil)
  .nil)

/-- components/kafka-protocol-go/pkg/protocol/messages/describeuserscramcredentials/response.go -/
def n_describeuserscramcredentials_Response : NT :=
  (.cons "ThrottleTimeMs".toList .nil
  (.cons "ErrorCode".toList .nil
  (.cons "ErrorMessage".toList .nil
  (.cons "Results".toList (.cons "User".toList .nil
  (.cons "ErrorCode".toList .nil
  (.cons "ErrorMessage".toList .nil
  (.cons "CredentialInfos".toList (.cons "Mechanism".toList .nil
  (.cons "Iterations".toList .nil
  .nil))
  .nil))))
  .nil))))

/-- components/kafka-protocol-go/pkg/protocol/messages/electleaders/request.go -/
def n_electleaders_Request : NT :=
  (.cons "ElectionType".toList .nil
  (.cons "TopicPartitions".toList (.cons "Topic".toList .nil
  (.cons "Partitions".toList .nil
  .nil))
  (.cons "TimeoutMs".toList .nil
  .nil)))

/-- components/kafka-protocol-go/pkg/protocol/messages/electleaders/response.go -/
def n_electleaders_Response : NT :=
  (.cons "ThrottleTimeMs".toList .nil
  (.cons "ErrorCode".toList .nil
  (.cons "ReplicaElectionResults".toList (.cons "Topic".toList .nil
  (.cons "PartitionResult".toList (.cons "PartitionId".toList .nil
  (.cons "ErrorCode".toList .nil
  (.cons "ErrorMessage".toList .nil
  .nil)))
  .nil))
  .nil)))

/-- components/kafka-protocol-go/pkg/protocol/messages/endquorumepoch/request.go -/
def n_endquorumepoch_Request : NT :=
  (.cons "ClusterId".toList .nil
  (.cons "Topics".toList (.cons "TopicName".toList .nil
  (.cons "Partitions".toList (.cons "PartitionIndex".toList .nil
  (.cons "LeaderId".toList .nil
  (.cons "LeaderEpoch".toList .nil
  (.cons "PreferredSuccessors".toList .nil
  .nil))))
  .nil))
  .nil))

/-- components/kafka-protocol-go/pkg/protocol/messages/endquorumepoch/response.go -/
def n_endquorumepoch_Response : NT :=
  (.cons "ErrorCode".toList .nil
  (.cons "Topics".toList (.cons "TopicName".toList .nil
  (.cons "Partitions".toList (.cons "PartitionIndex".toList .nil
  (.cons "ErrorCode".toList .nil
  (.cons "LeaderId".toList .nil
  (.cons "LeaderEpoch".toList .nil
  .nil))))
  .nil))
  .nil))

/-- components/kafka-protocol-go/pkg/protocol/messages/endtxn/request.go -/
def n_endtxn_Request : NT :=
  (.cons "TransactionalId".toList .nil
  (.cons "ProducerId".toList .nil
  (.cons "ProducerEpoch".toList .nil
  (.cons "Committed".toList .nil
  .nil))))

/-- components/kafka-protocol-go/pkg/protocol/messages/endtxn/response.go -/
def n_endtxn_Response : NT :=
  (.cons "ThrottleTimeMs".toList .nil
  (.cons "ErrorCode".toList .nil
  .nil))

/-- components/kafka-protocol-go/pkg/protocol/messages/envelope/request.go -/
def n_envelope_Request : NT :=
  (.cons "RequestData".toList .nil
  (.cons "RequestPrincipal".toList .nil
  (.cons "ClientHostAddress".toList .nil
  .nil)))

/-- components/kafka-protocol-go/pkg/protocol/messages/envelope/response.go -/
def n_envelope_Response : NT :=
  (.cons "ResponseData".toList .nil
  (.cons "ErrorCode".toList .nil
  .nil))

/-- components/kafka-protocol-go/pkg/protocol/messages/expiredelegationtoken/request.go -/
def n_expiredelegationtoken_Request : NT :=
  (.cons "Hmac".toList .nil
  (.cons "ExpiryTimePeriodMs".toList .nil
  .nil))

/-- components/kafka-protocol-go/pkg/protocol/messages/expiredelegationtoken/response.go -/
def n_expiredelegationtoken_Response : NT :=
  (.cons "ErrorCode".toList .nil
  (.cons "ExpiryTimestampMs".toList .nil
  (.cons "ThrottleTimeMs".toList .nil
  .nil)))

/-- components/kafka-protocol-go/pkg/protocol/messages/fetch/request.go -/
def n_fetch_Request : NT :=
  (.cons "ClusterId".toList .nil
  (.cons "ReplicaId".toList .nil
  (.cons "MaxWaitMs".toList .nil
  (.cons "MinBytes".toList .nil
  (.cons "MaxBytes".toList .nil
  (.cons "IsolationLevel".toList .nil
  (.cons "SessionId".toList .nil
  (.cons "SessionEpoch".toList .nil
  (.cons "Topics".toList (.cons "Topic".toList .nil
  (.cons "TopicId".toList .nil
  (.cons "Partitions".toList (.cons "Partition".toList .nil
  (.cons "CurrentLeaderEpoch".toList .nil
  (.cons "FetchOffset".toList .nil
  (.cons "LastFetchedEpoch".toList .nil
  (.cons "LogStartOffset".toList .nil
  (.cons "PartitionMaxBytes".toList .nil
  .nil))))))
  .nil)))
  (.cons "ForgottenTopicsData".toList (.cons "Topic".toList .nil
  (.cons "TopicId".toList .nil
  (.cons "Partitions".toList .nil
  .nil)))
  (.cons "RackId".toList .nil
  .nil)))))))))))

/-- components/kafka-protocol-go/pkg/protocol/messages/fetch/response.go -/
def n_fetch_Response : NT :=
  (.cons "ThrottleTimeMs".toList .nil
  (.cons "ErrorCode".toList .nil
  (.cons "SessionId".toList .nil
  (.cons "Responses".toList (.cons "Topic".toList .nil
  (.cons "TopicId".toList .nil
  (.cons "Partitions".toList (.cons "PartitionIndex".toList .nil
  (.cons "ErrorCode".toList .nil
  (.cons "HighWatermark".toList .nil
  (.cons "LastStableOffset".toList .nil
  (.cons "LogStartOffset".toList .nil
  (.cons "DivergingEpoch".toList (.cons "Epoch".toList .nil
  (.cons "EndOffset".toList .nil
  .nil))
  (.cons "CurrentLeader".toList (.cons "LeaderId".toList .nil
  (.cons "LeaderEpoch".toList .nil
  .nil))
  (.cons "SnapshotId".toList (.cons "EndOffset".toList .nil
  (.cons "Epoch".toList .nil
  .nil))
  (.cons "AbortedTransactions".toList (.cons "ProducerId".toList .nil
  (.cons "FirstOffset".toList .nil
  .nil))
  (.cons "PreferredReadReplica".toList .nil
  (.cons "Records".toList .nil
  .nil)))))))))))
  .nil)))
  .nil))))

/-- components/kafka-protocol-go/pkg/protocol/messages/fetchsnapshot/request.go -/
def n_fetchsnapshot_Request : NT :=
  (.cons "ClusterId".toList .nil
  (.cons "ReplicaId".toList .nil
  (.cons "MaxBytes".toList .nil
  (.cons "Topics".toList (.cons "Name".toList .nil
  (.cons "Partitions".toList (.cons "Partition".toList .nil
  (.cons "CurrentLeaderEpoch".toList .nil
  (.cons "SnapshotId".toList (.cons "EndOffset".toList .nil
  (.cons "Epoch".toList .nil
  .nil))
  (.cons "Position".toList .nil
  .nil))))
  .nil))
  .nil))))

/-- components/kafka-protocol-go/pkg/protocol/messages/fetchsnapshot/response.go -/
def n_fetchsnapshot_Response : NT :=
  (.cons "ThrottleTimeMs".toList .nil
  (.cons "ErrorCode".toList .nil
  (.cons "Topics".toList (.cons "Name".toList .nil
  (.cons "Partitions".toList (.cons "Index".toList .nil
  (.cons "ErrorCode".toList .nil
  (.cons "SnapshotId".toList (.cons "EndOffset".toList .nil
  (.cons "Epoch".toList .nil
  .nil))
  (.cons "CurrentLeader".toList (.cons "LeaderId".toList .nil
  (.cons "LeaderEpoch".toList .nil
  .nil))
  (.cons "Size".toList .nil
  (.cons "Position".toList .nil
  (.cons "UnalignedRecords".toList .nil
  .nil)))))))
  .nil))
  .nil)))

/-- components/kafka-protocol-go/pkg/protocol/messages/findcoordinator/request.go -/
def n_findcoordinator_Request : NT :=
  (.cons "Key".toList .nil
  (.cons "KeyType".toList .nil
  (.cons "CoordinatorKeys".toList .nil
  .nil)))

/-- components/kafka-protocol-go/pkg/protocol/messages/findcoordinator/response.go -/
def n_findcoordinator_Response : NT :=
  (.cons "ThrottleTimeMs".toList .nil
  (.cons "ErrorCode".toList .nil
  (.cons "ErrorMessage".toList .nil
  (.cons "NodeId".toList .nil
  (.cons "Host".toList .nil
  (.cons "Port".toList .nil
  (.cons "Coordinators".toList (.cons "Key".toList .nil
  (.cons "NodeId".toList .nil
  (.cons "Host".toList .nil
  (.cons "Port".toList .nil
  (.cons "ErrorCode".toList .nil
  (.cons "ErrorMessage".toList .nil
  .nil))))))
  .nil)))))))

/-- components/kafka-protocol-go/pkg/protocol/messages/heartbeat/request.go -/
def n_heartbeat_Request : NT :=
  (.cons "GroupId".toList .nil
  (.cons "GenerationId".toList .nil
  (.cons "MemberId".toList .nil
  (.cons "GroupInstanceId".toList .nil
  .nil))))

/-- components/kafka-protocol-go/pkg/protocol/messages/heartbeat/response.go -/
def n_heartbeat_Response : NT :=
  (.cons "ThrottleTimeMs".toList .nil
  (.cons "ErrorCode".toList .nil
  .nil))

/-- components/kafka-protocol-go/pkg/protocol/messages/incrementalalterconfigs/request.go -/
def n_incrementalalterconfigs_Request : NT :=
  (.cons "Resources".toList (.cons "ResourceType".toList .nil
  (.cons "ResourceName".toList .nil
  (.cons "Configs".toList (.cons "Name".toList .nil
  (.cons "ConfigOperation".toList .nil
  (.cons "Value".toList .nil
  .nil)))
  .nil)))
  (.cons "ValidateOnly".toList .nil
  .nil))

/-- components/kafka-protocol-go/pkg/protocol/messages/incrementalalterconfigs/response.go -/
def n_incrementalalterconfigs_Response : NT :=
  (.cons "ThrottleTimeMs".toList .nil
  (.cons "Responses".toList (.cons "ErrorCode".toList .nil
  (.cons "ErrorMessage".toList .nil
  (.cons "ResourceType".toList .nil
  (.cons "ResourceName".toList .nil
  .nil))))
  .nil))

/-- components/kafka-protocol-go/pkg/protocol/messages/initproducerid/request.go -/
def n_initproducerid_Request : NT :=
  (.cons "TransactionalId".toList .nil
  (.cons "TransactionTimeoutMs".toList .nil
  (.cons "ProducerId".toList .nil
  (.cons "ProducerEpoch".toList .nil
  .nil))))

/-- components/kafka-protocol-go/pkg/protocol/messages/initproducerid/response.go -/
def n_initproducerid_Response : NT :=
  (.cons "ThrottleTimeMs".toList .nil
  (.cons "ErrorCode".toList .nil
  (.cons "ProducerId".toList .nil
  (.cons "ProducerEpoch".toList .nil
  .nil))))

/-- components/kafka-protocol-go/pkg/protocol/messages/joingroup/request.go -/
def n_joingroup_Request : NT :=
  (.cons "GroupId".toList .nil
  (.cons "SessionTimeoutMs".toList .nil
  (.cons "RebalanceTimeoutMs".toList .nil
  (.cons "MemberId".toList .nil
  (.cons "GroupInstanceId".toList .nil
  (.cons "ProtocolType".toList .nil
  (.cons "Protocols".toList (.cons "Name".toList .nil
  (.cons "Metadata".toList .nil
  .nil))
  (.cons "Reason".toList .nil
  .nil))))))))

/-- components/kafka-protocol-go/pkg/protocol/messages/joingroup/response.go -/
def n_joingroup_Response : NT :=
  (.cons "ThrottleTimeMs".toList .nil
  (.cons "ErrorCode".toList .nil
  (.cons "GenerationId".toList .nil
  (.cons "ProtocolType".toList .nil
  (.cons "ProtocolName".toList .nil
  (.cons "Leader".toList .nil
  (.cons "SkipAssignment".toList .nil
  (.cons "MemberId".toList .nil
  (.cons "Members".toList (.cons "MemberId".toList .nil
  (.cons "GroupInstanceId".toList .nil
  (.cons "Metadata".toList .nil
  .nil)))
  .nil)))))))))

/-- components/kafka-protocol-go/pkg/protocol/messages/leaderandisr/request.go -/
def n_leaderandisr_Request : NT :=
  (.cons "ControllerId".toList .nil
  (.cons "IsKRaftController".toList .nil
  (.cons "ControllerEpoch".toList .nil
  (.cons "BrokerEpoch".toList .nil
  (.cons "Type".toList .nil
  (.cons "UngroupedPartitionStates".toList (.cons "TopicName".toList .nil
  (.cons "PartitionIndex".toList .nil
  (.cons "ControllerEpoch".toList .nil
  (.cons "Leader".toList .nil
  (.cons "LeaderEpoch".toList .nil
  (.cons "Isr".toList .nil
  (.cons "PartitionEpoch".toList .nil
  (.cons "Replicas".toList .nil
  (.cons "AddingReplicas".toList .nil
  (.cons "RemovingReplicas".toList .nil
  (.cons "IsNew".toList .nil
  (.cons "LeaderRecoveryState".toList .nil
  .nil))))))))))))
  (.cons "TopicStates".toList (.cons "TopicName".toList .nil
  (.cons "TopicId".toList .nil
  (.cons "PartitionStates".toList (.cons "TopicName".toList .nil
  (.cons "PartitionIndex".toList .nil
  (.cons "ControllerEpoch".toList .nil
  (.cons "Leader".toList .nil
  (.cons "LeaderEpoch".toList .nil
  (.cons "Isr".toList .nil
  (.cons "PartitionEpoch".toList .nil
  (.cons "Replicas".toList .nil
  (.cons "AddingReplicas".toList .nil
  (.cons "RemovingReplicas".toList .nil
  (.cons "IsNew".toList .nil
  (.cons "LeaderRecoveryState".toList .nil
  .nil))))))))))))
  .nil)))
  (.cons "LiveLeaders".toList (.cons "BrokerId".toList .nil
  (.cons "HostName".toList .nil
  (.cons "Port".toList .nil
  .nil)))
  .nil))))))))

/-- components/kafka-protocol-go/pkg/protocol/messages/leaderandisr/response.go -/
def n_leaderandisr_Response : NT :=
  (.cons "ErrorCode".toList .nil
  (.cons "PartitionErrors".toList (.cons "TopicName".toList .nil
  (.cons "PartitionIndex".toList .nil
  (.cons "ErrorCode".toList .nil
  .nil)))
  (.cons "Topics".toList (.cons "TopicId".toList .nil
  (.cons "PartitionErrors".toList (.cons "TopicName".toList .nil
  (.cons "PartitionIndex".toList .nil
  (.cons "ErrorCode".toList .nil
  .nil)))
  .nil))
  .nil)))

/-- components/kafka-protocol-go/pkg/protocol/messages/leavegroup/request.go -/
def n_leavegroup_Request : NT :=
  (.cons "GroupId".toList .nil
  (.cons "MemberId".toList .nil
  (.cons "Members".toList (.cons "MemberId".toList .nil
  (.cons "GroupInstanceId".toList .nil
  (.cons "Reason".toList .nil
  .nil)))
  .nil)))

/-- components/kafka-protocol-go/pkg/protocol/messages/leavegroup/response.go -/
def n_leavegroup_Response : NT :=
  (.cons "ThrottleTimeMs".toList .nil
  (.cons "ErrorCode".toList .nil
  (.cons "Members".toList (.cons "MemberId".toList .nil
  (.cons "GroupInstanceId".toList .nil
  (.cons "ErrorCode".toList .nil
  .nil)))
  .nil)))

/-- components/kafka-protocol-go/pkg/protocol/messages/listgroups/request.go -/
def n_listgroups_Request : NT :=
  (.cons "StatesFilter".toList .nil
  .nil)

/-- components/kafka-protocol-go/pkg/protocol/messages/listgroups/response.go -/
def n_listgroups_Response : NT :=
  (.cons "ThrottleTimeMs".toList .nil
  (.cons "ErrorCode".toList .nil
  (.cons "Groups".toList (.cons "GroupId".toList .nil
  (.cons "ProtocolType".toList .nil
  (.cons "GroupState".toList .nil
  .nil)))
  .nil)))

/-- components/kafka-protocol-go/pkg/protocol/messages/listoffsets/request.go -/
def n_listoffsets_Request : NT :=
  (.cons "ReplicaId".toList .nil
  (.cons "IsolationLevel".toList .nil
  (.cons "Topics".toList (.cons "Name".toList .nil
  (.cons "Partitions".toList (.cons "PartitionIndex".toList .nil
  (.cons "CurrentLeaderEpoch".toList .nil
  (.cons "Timestamp".toList .nil
  (.cons "MaxNumOffsets".toList .nil
  .nil))))
  .nil))
  .nil)))

/-- components/kafka-protocol-go/pkg/protocol/messages/listoffsets/response.go -/
def n_listoffsets_Response : NT :=
  (.cons "ThrottleTimeMs".toList .nil
  (.cons "Topics".toList (.cons "Name".toList .nil
  (.cons "Partitions".toList (.cons "PartitionIndex".toList .nil
  (.cons "ErrorCode".toList .nil
  (.cons "OldStyleOffsets".toList .nil
  (.cons "Timestamp".toList .nil
  (.cons "Offset".toList .nil
  (.cons "LeaderEpoch".toList .nil
  .nil))))))
  .nil))
  .nil))

/-- components/kafka-protocol-go/pkg/protocol/messages/listpartitionreassignments/request.go -/
def n_listpartitionreassignments_Request : NT :=
  (.cons "TimeoutMs".toList .nil
  (.cons "Topics".toList (.cons "Name".toList .nil
  (.cons "PartitionIndexes".toList .nil
  .nil))
  .nil))

/-- components/kafka-protocol-go/pkg/protocol/messages/listpartitionreassignments/response.go -/
def n_listpartitionreassignments_Response : NT :=
  (.cons "ThrottleTimeMs".toList .nil
  (.cons "ErrorCode".toList .nil
  (.cons "ErrorMessage".toList .nil
  (.cons "Topics".toList (.cons "Name".toList .nil
  (.cons "Partitions".toList (.cons "PartitionIndex".toList .nil
  (.cons "Replicas".toList .nil
  (.cons "AddingReplicas".toList .nil
  (.cons "RemovingReplicas".toList .nil
  .nil))))
  .nil))
  .nil))))

/-- components/kafka-protocol-go/pkg/protocol/messages/listtransactions/request.go -/
def n_listtransactions_Request : NT :=
  (.cons "StateFilters".toList .nil
  (.cons "ProducerIdFilters".toList .nil
  .nil))

/-- components/kafka-protocol-go/pkg/protocol/messages/listtransactions/response.go -/
def n_listtransactions_Response : NT :=
  (.cons "ThrottleTimeMs".toList .nil
  (.cons "ErrorCode".toList .nil
  (.cons "UnknownStateFilters".toList .nil
  (.cons "TransactionStates".toList (.cons "TransactionalId".toList .nil
  (.cons "ProducerId".toList .nil
  (.cons "TransactionState".toList .nil
  .nil)))
  .nil))))

/-- components/kafka-protocol-go/pkg/protocol/messages/metadata/request.go -/
def n_metadata_Request : NT :=
  (.cons "Topics".toList (.cons "TopicId".toList .nil
  (.cons "Name".toList .nil
  .nil))
  (.cons "AllowAutoTopicCreation".toList .nil
  (.cons "IncludeClusterAuthorizedOperations".toList .nil
  (.cons "IncludeTopicAuthorizedOperations".toList .nil
  .nil))))

/-- components/kafka-protocol-go/pkg/protocol/messages/metadata/response.go -/
def n_metadata_Response : NT :=
  (.cons "ThrottleTimeMs".toList .nil
  (.cons "Brokers".toList (.cons "NodeId".toList .nil
  (.cons "Host".toList .nil
  (.cons "Port".toList .nil
  (.cons "Rack".toList .nil
  .nil))))
  (.cons "ClusterId".toList .nil
  (.cons "ControllerId".toList .nil
  (.cons "Topics".toList (.cons "ErrorCode".toList .nil
  (.cons "Name".toList .nil
  (.cons "TopicId".toList .nil
  (.cons "IsInternal".toList .nil
  (.cons "Partitions".toList (.cons "ErrorCode".toList .nil
  (.cons "PartitionIndex".toList .nil
  (.cons "LeaderId".toList .nil
  (.cons "LeaderEpoch".toList .nil
  (.cons "ReplicaNodes".toList .nil
  (.cons "IsrNodes".toList .nil
  (.cons "OfflineReplicas".toList .nil
  .nil)))))))
  (.cons "TopicAuthorizedOperations".toList .nil
  .nil))))))
  (.cons "ClusterAuthorizedOperations".toList .nil
  .nil))))))

/-- components/kafka-protocol-go/pkg/protocol/messages/offsetcommit/request.go -/
def n_offsetcommit_Request : NT :=
  (.cons "GroupId".toList .nil
  (.cons "GenerationId".toList .nil
  (.cons "MemberId".toList .nil
  (.cons "GroupInstanceId".toList .nil
  (.cons "RetentionTimeMs".toList .nil
  (.cons "Topics".toList (.cons "Name".toList .nil
  (.cons "Partitions".toList (.cons "PartitionIndex".toList .nil
  (.cons "CommittedOffset".toList .nil
  (.cons "CommittedLeaderEpoch".toList .nil
  (.cons "CommitTimestamp".toList .nil
  (.cons "CommittedMetadata".toList .nil
  .nil)))))
  .nil))
  .nil))))))

/-- components/kafka-protocol-go/pkg/protocol/messages/offsetcommit/response.go -/
def n_offsetcommit_Response : NT :=
  (.cons "ThrottleTimeMs".toList .nil
  (.cons "Topics".toList (.cons "Name".toList .nil
  (.cons "Partitions".toList (.cons "PartitionIndex".toList .nil
  (.cons "ErrorCode".toList .nil
  .nil))
  .nil))
  .nil))

/-- components/kafka-protocol-go/pkg/protocol/messages/offsetdelete/request.go -/
def n_offsetdelete_Request : NT :=
  (.cons "GroupId".toList .nil
  (.cons "Topics".toList (.cons "Name".toList .nil
  (.cons "Partitions".toList (.cons "PartitionIndex".toList .nil
  .nil)
  .nil))
  .nil))

/-- components/kafka-protocol-go/pkg/protocol/messages/offsetdelete/response.go -/
def n_offsetdelete_Response : NT :=
  (.cons "ErrorCode".toList .nil
  (.cons "ThrottleTimeMs".toList .nil
  (.cons "Topics".toList (.cons "Name".toList .nil
  (.cons "Partitions".toList (.cons "PartitionIndex".toList .nil
  (.cons "ErrorCode".toList .nil
  .nil))
  .nil))
  .nil)))

/-- components/kafka-protocol-go/pkg/protocol/messages/offsetfetch/request.go -/
def n_offsetfetch_Request : NT :=
  (.cons "GroupId".toList .nil
  (.cons "Topics".toList (.cons "Name".toList .nil
  (.cons "PartitionIndexes".toList .nil
  .nil))
  (.cons "Groups".toList (.cons "GroupId".toList .nil
  (.cons "Topics".toList (.cons "Name".toList .nil
  (.cons "PartitionIndexes".toList .nil
  .nil))
  .nil))
  (.cons "RequireStable".toList .nil
  .nil))))

/-- components/kafka-protocol-go/pkg/protocol/messages/offsetfetch/response.go -/
def n_offsetfetch_Response : NT :=
  (.cons "ThrottleTimeMs".toList .nil
  (.cons "Topics".toList (.cons "Name".toList .nil
  (.cons "Partitions".toList (.cons "PartitionIndex".toList .nil
  (.cons "CommittedOffset".toList .nil
  (.cons "CommittedLeaderEpoch".toList .nil
  (.cons "Metadata".toList .nil
  (.cons "ErrorCode".toList .nil
  .nil)))))
  .nil))
  (.cons "ErrorCode".toList .nil
  (.cons "Groups".toList (.cons "GroupId".toList .nil
  (.cons "Topics".toList (.cons "Name".toList .nil
  (.cons "Partitions".toList (.cons "PartitionIndex".toList .nil
  (.cons "CommittedOffset".toList .nil
  (.cons "CommittedLeaderEpoch".toList .nil
  (.cons "Metadata".toList .nil
  (.cons "ErrorCode".toList .nil
  .nil)))))
  .nil))
  (.cons "ErrorCode".toList .nil
  .nil)))
  .nil))))

/-- components/kafka-protocol-go/pkg/protocol/messages/offsetforleaderepoch/request.go -/
def n_offsetforleaderepoch_Request : NT :=
  (.cons "ReplicaId".toList .nil
  (.cons "Topics".toList (.cons "Topic".toList .nil
  (.cons "Partitions".toList (.cons "Partition".toList .nil
  (.cons "CurrentLeaderEpoch".toList .nil
  (.cons "LeaderEpoch".toList .nil
  .nil)))
  .nil))
  .nil))

/-- components/kafka-protocol-go/pkg/protocol/messages/offsetforleaderepoch/response.go -/
def n_offsetforleaderepoch_Response : NT :=
  (.cons "ThrottleTimeMs".toList .nil
  (.cons "Topics".toList (.cons "Topic".toList .nil
  (.cons "Partitions".toList (.cons "ErrorCode".toList .nil
  (.cons "Partition".toList .nil
  (.cons "LeaderEpoch".toList .nil
  (.cons "EndOffset".toList .nil
  .nil))))
  .nil))
  .nil))

/-- components/kafka-protocol-go/pkg/protocol/messages/produce/request.go -/
def n_produce_Request : NT :=
  (.cons "TransactionalId".toList .nil
  (.cons "Acks".toList .nil
  (.cons "TimeoutMs".toList .nil
  (.cons "TopicData".toList (.cons "Name".toList .nil
  (.cons "PartitionData".toList (.cons "Index".toList .nil
  (.cons "Records".toList .nil
  .nil))
  .nil))
  .nil))))

/-- components/kafka-protocol-go/pkg/protocol/messages/produce/response.go -/
def n_produce_Response : NT :=
  (.cons "Responses".toList (.cons "Name".toList .nil
  (.cons "PartitionResponses".toList (.cons "Index".toList .nil
  (.cons "ErrorCode".toList .nil
  (.cons "BaseOffset".toList .nil
  (.cons "LogAppendTimeMs".toList .nil
  (.cons "LogStartOffset".toList .nil
  (.cons "RecordErrors".toList (.cons "BatchIndex".toList .nil
  (.cons "BatchIndexErrorMessage".toList .nil
  .nil))
  (.cons "ErrorMessage".toList .nil
  .nil)))))))
  .nil))
  (.cons "ThrottleTimeMs".toList .nil
  .nil))

/-- components/kafka-protocol-go/pkg/protocol/messages/renewdelegationtoken/request.go -/
def n_renewdelegationtoken_Request : NT :=
  (.cons "Hmac".toList .nil
  (.cons "RenewPeriodMs".toList .nil
  .nil))

/-- components/kafka-protocol-go/pkg/protocol/messages/renewdelegationtoken/response.go -/
def n_renewdelegationtoken_Response : NT :=
  (.cons "ErrorCode".toList .nil
  (.cons "ExpiryTimestampMs".toList .nil
  (.cons "ThrottleTimeMs".toList .nil
  .nil)))

/-- components/kafka-protocol-go/pkg/protocol/messages/request/header.go -/
def n_request_Header : NT :=
  (.cons "RequestApiKey".toList .nil
  (.cons "RequestApiVersion".toList .nil
  (.cons "CorrelationId".toList .nil
  (.cons "ClientId".toList .nil
  .nil))))

/-- components/kafka-protocol-go/pkg/protocol/messages/response/header.go -/
def n_response_Header : NT :=
  (.cons "CorrelationId".toList .nil
  .nil)

/-- components/kafka-protocol-go/pkg/protocol/messages/saslauthenticate/request.go -/
def n_saslauthenticate_Request : NT :=
  (.cons "AuthBytes".toList .nil
  .nil)

/-- components/kafka-protocol-go/pkg/protocol/messages/saslauthenticate/response.go -/
def n_saslauthenticate_Response : NT :=
  (.cons "ErrorCode".toList .nil
  (.cons "ErrorMessage".toList .nil
  (.cons "AuthBytes".toList .nil
  (.cons "SessionLifetimeMs".toList .nil
  .nil))))

/-- components/kafka-protocol-go/pkg/protocol/messages/saslhandshake/request.go -/
def n_saslhandshake_Request : NT :=
  (.cons "Mechanism".toList .nil
  .nil)

/-- components/kafka-protocol-go/pkg/protocol/messages/saslhandshake/response.go -/
def n_saslhandshake_Response : NT :=
  (.cons "ErrorCode".toList .nil
  (.cons "Mechanisms".toList .nil
  .nil))

/-- components/kafka-protocol-go/pkg/protocol/messages/stopreplica/request.go -/
def n_stopreplica_Request : NT :=
  (.cons "ControllerId".toList .nil
  (.cons "IsKRaftController".toList .nil
  (.cons "ControllerEpoch".toList .nil
  (.cons "BrokerEpoch".toList .nil
  (.cons "DeletePartitions".toList .nil
  (.cons "UngroupedPartitions".toList (.cons "TopicName".toList .nil
  (.cons "PartitionIndex".toList .nil
  .nil))
  (.cons "Topics".toList (.cons "Name".toList .nil
  (.cons "PartitionIndexes".toList .nil
  .nil))
  (.cons "TopicStates".toList (.cons "TopicName".toList .nil
  (.cons "PartitionStates".toList (.cons "PartitionIndex".toList .nil
  (.cons "LeaderEpoch".toList .nil
  (.cons "DeletePartition".toList .nil
  .nil)))
  .nil))
  .nil))))))))

/-- components/kafka-protocol-go/pkg/protocol/messages/stopreplica/response.go -/
def n_stopreplica_Response : NT :=
  (.cons "ErrorCode".toList .nil
  (.cons "PartitionErrors".toList (.cons "TopicName".toList .nil
  (.cons "PartitionIndex".toList .nil
  (.cons "ErrorCode".toList .nil
  .nil)))
  .nil))

/-- components/kafka-protocol-go/pkg/protocol/messages/syncgroup/request.go -/
def n_syncgroup_Request : NT :=
  (.cons "GroupId".toList .nil
  (.cons "GenerationId".toList .nil
  (.cons "MemberId".toList .nil
  (.cons "GroupInstanceId".toList .nil
  (.cons "ProtocolType".toList .nil
  (.cons "ProtocolName".toList .nil
  (.cons "Assignments".toList (.cons "MemberId".toList .nil
  (.cons "Assignment".toList .nil
  .nil))
  .nil)))))))

/-- components/kafka-protocol-go/pkg/protocol/messages/syncgroup/response.go -/
def n_syncgroup_Response : NT :=
  (.cons "ThrottleTimeMs".toList .nil
  (.cons "ErrorCode".toList .nil
  (.cons "ProtocolType".toList .nil
  (.cons "ProtocolName".toList .nil
  (.cons "Assignment".toList .nil
  .nil)))))

/-- components/kafka-protocol-go/pkg/protocol/messages/txnoffsetcommit/request.go -/
def n_txnoffsetcommit_Request : NT :=
  (.cons "TransactionalId".toList .nil
  (.cons "GroupId".toList .nil
  (.cons "ProducerId".toList .nil
  (.cons "ProducerEpoch".toList .nil
  (.cons "GenerationId".toList .nil
  (.cons "MemberId".toList .nil
  (.cons "GroupInstanceId".toList .nil
  (.cons "Topics".toList (.cons "Name".toList .nil
  (.cons "Partitions".toList (.cons "PartitionIndex".toList .nil
  (.cons "CommittedOffset".toList .nil
  (.cons "CommittedLeaderEpoch".toList .nil
  (.cons "CommittedMetadata".toList .nil
  .nil))))
  .nil))
  .nil))))))))

/-- components/kafka-protocol-go/pkg/protocol/messages/txnoffsetcommit/response.go -/
def n_txnoffsetcommit_Response : NT :=
  (.cons "ThrottleTimeMs".toList .nil
  (.cons "Topics".toList (.cons "Name".toList .nil
  (.cons "Partitions".toList (.cons "PartitionIndex".toList .nil
  (.cons "ErrorCode".toList .nil
  .nil))
  .nil))
  .nil))

/-- components/kafka-protocol-go/pkg/protocol/messages/unregisterbroker/request.go -/
def n_unregisterbroker_Request : NT :=
  (.cons "BrokerId".toList .nil
  .nil)

/-- components/kafka-protocol-go/pkg/protocol/messages/unregisterbroker/response.go -/
def n_unregisterbroker_Response : NT :=
  (.cons "ThrottleTimeMs".toList .nil
  (.cons "ErrorCode".toList .nil
  (.cons "ErrorMessage".toList .nil
  .nil)))

/-- components/kafka-protocol-go/pkg/protocol/messages/updatefeatures/request.go -/
def n_updatefeatures_Request : NT :=
  (.cons "TimeoutMs".toList .nil
  (.cons "FeatureUpdates".toList (.cons "Feature".toList .nil
  (.cons "MaxVersionLevel".toList .nil
  (.cons "AllowDowngrade".toList .nil
  (.cons "UpgradeType".toList .nil
  .nil))))
  (.cons "ValidateOnly".toList .nil
  .nil)))

/-- components/kafka-protocol-go/pkg/protocol/messages/updatefeatures/response.go -/
def n_updatefeatures_Response : NT :=
  (.cons "ThrottleTimeMs".toList .nil
  (.cons "ErrorCode".toList .nil
  (.cons "ErrorMessage".toList .nil
  (.cons "Results".toList (.cons "Feature".toList .nil
  (.cons "ErrorCode".toList .nil
  (.cons "ErrorMessage".toList .nil
  .nil)))
  .nil))))

/-- components/kafka-protocol-go/pkg/protocol/messages/updatemetadata/request.go -/
def n_updatemetadata_Request : NT :=
  (.cons "ControllerId".toList .nil
  (.cons "IsKRaftController".toList .nil
  (.cons "ControllerEpoch".toList .nil
  (.cons "BrokerEpoch".toList .nil
  (.cons "UngroupedPartitionStates".toList (.cons "TopicName".toList .nil
  (.cons "PartitionIndex".toList .nil
  (.cons "ControllerEpoch".toList .nil
  (.cons "Leader".toList .nil
  (.cons "LeaderEpoch".toList .nil
  (.cons "Isr".toList .nil
  (.cons "ZkVersion".toList .nil
  (.cons "Replicas".toList .nil
  (.cons "OfflineReplicas".toList .nil
  .nil)))))))))
  (.cons "TopicStates".toList (.cons "TopicName".toList .nil
  (.cons "TopicId".toList .nil
  (.cons "PartitionStates".toList (.cons "TopicName".toList .nil
  (.cons "PartitionIndex".toList .nil
  (.cons "ControllerEpoch".toList .nil
  (.cons "Leader".toList .nil
  (.cons "LeaderEpoch".toList .nil
  (.cons "Isr".toList .nil
  (.cons "ZkVersion".toList .nil
  (.cons "Replicas".toList .nil
  (.cons "OfflineReplicas".toList .nil
  .nil)))))))))
  .nil)))
  (.cons "LiveBrokers".toList (.cons "Id".toList .nil
  (.cons "V0Host".toList .nil
  (.cons "V0Port".toList .nil
  (.cons "Endpoints".toList (.cons "Port".toList .nil
  (.cons "Host".toList .nil
  (.cons "Listener".toList .nil
  (.cons "SecurityProtocol".toList .nil
  .nil))))
  (.cons "Rack".toList .nil
  .nil)))))
  .nil)))))))

/-- components/kafka-protocol-go/pkg/protocol/messages/updatemetadata/response.go -/
def n_updatemetadata_Response : NT :=
  (.cons "ErrorCode".toList .nil
  .nil)

/-- components/kafka-protocol-go/pkg/protocol/messages/vote/request.go -/
def n_vote_Request : NT :=
  (.cons "ClusterId".toList .nil
  (.cons "Topics".toList (.cons "TopicName".toList .nil
  (.cons "Partitions".toList (.cons "PartitionIndex".toList .nil
  (.cons "CandidateEpoch".toList .nil
  (.cons "CandidateId".toList .nil
  (.cons "LastOffsetEpoch".toList .nil
  (.cons "LastOffset".toList .nil
  .nil)))))
  .nil))
  .nil))

/-- components/kafka-protocol-go/pkg/protocol/messages/vote/response.go -/
def n_vote_Response : NT :=
  (.cons "ErrorCode".toList .nil
  (.cons "Topics".toList (.cons "TopicName".toList .nil
  (.cons "Partitions".toList (.cons "PartitionIndex".toList .nil
  (.cons "ErrorCode".toList .nil
  (.cons "LeaderId".toList .nil
  (.cons "LeaderEpoch".toList .nil
  (.cons "VoteGranted".toList .nil
  .nil)))))
  .nil))
  .nil))

/-- components/kafka-protocol-go/pkg/protocol/messages/writetxnmarkers/request.go -/
def n_writetxnmarkers_Request : NT :=
  (.cons "Markers".toList (.cons "ProducerId".toList .nil
  (.cons "ProducerEpoch".toList .nil
  (.cons "TransactionResult".toList .nil
  (.cons "Topics".toList (.cons "Name".toList .nil
  (.cons "PartitionIndexes".toList .nil
  .nil))
  (.cons "CoordinatorEpoch".toList .nil
  .nil)))))
  .nil)

/-- components/kafka-protocol-go/pkg/protocol/messages/writetxnmarkers/response.go -/
def n_writetxnmarkers_Response : NT :=
  (.cons "Markers".toList (.cons "ProducerId".toList .nil
  (.cons "Topics".toList (.cons "Name".toList .nil
  (.cons "Partitions".toList (.cons "PartitionIndex".toList .nil
  (.cons "ErrorCode".toList .nil
  .nil))
  .nil))
  .nil))
  .nil)

/-- in the order of `requests`, `responses`, and the request and response headers -/
def requestNames : List NT := [
  n_addoffsetstotxn_Request, n_addpartitionstotxn_Request, n_allocateproducerids_Request, n_alterclientquotas_Request, n_alterconfigs_Request, n_alterpartition_Request, n_alterpartitionreassignments_Request, n_alterreplicalogdirs_Request, n_alteruserscramcredentials_Request, n_apiversions_Request, n_beginquorumepoch_Request, n_brokerheartbeat_Request, n_brokerregistration_Request, n_controlledshutdown_Request, n_createacls_Request, n_createdelegationtoken_Request, n_createpartitions_Request, n_createtopics_Request, n_deleteacls_Request, n_deletegroups_Request, n_deleterecords_Request, n_deletetopics_Request, n_describeacls_Request, n_describeclientquotas_Request, n_describecluster_Request, n_describeconfigs_Request, n_describedelegationtoken_Request, n_describegroups_Request, n_describelogdirs_Request, n_describeproducers_Request, n_describequorum_Request, n_describetransactions_Request, n_describeuserscramcredentials_Request, n_electleaders_Request, n_endquorumepoch_Request, n_endtxn_Request, n_envelope_Request, n_expiredelegationtoken_Request, n_fetch_Request, n_fetchsnapshot_Request, n_findcoordinator_Request, n_heartbeat_Request, n_incrementalalterconfigs_Request, n_initproducerid_Request, n_joingroup_Request, n_leaderandisr_Request, n_leavegroup_Request, n_listgroups_Request, n_listoffsets_Request, n_listpartitionreassignments_Request, n_listtransactions_Request, n_metadata_Request, n_offsetcommit_Request, n_offsetdelete_Request, n_offsetfetch_Request, n_offsetforleaderepoch_Request, n_produce_Request, n_renewdelegationtoken_Request, n_saslauthenticate_Request, n_saslhandshake_Request, n_stopreplica_Request, n_syncgroup_Request, n_txnoffsetcommit_Request, n_unregisterbroker_Request, n_updatefeatures_Request, n_updatemetadata_Request, n_vote_Request, n_writetxnmarkers_Request]

/-- in the order of `requests`, `responses`, and the request and response headers -/
def responseNames : List NT := [
  n_addoffsetstotxn_Response, n_addpartitionstotxn_Response, n_allocateproducerids_Response, n_alterclientquotas_Response, n_alterconfigs_Response, n_alterpartition_Response, n_alterpartitionreassignments_Response, n_alterreplicalogdirs_Response, n_alteruserscramcredentials_Response, n_apiversions_Response, n_beginquorumepoch_Response, n_brokerheartbeat_Response, n_brokerregistration_Response, n_controlledshutdown_Response, n_createacls_Response, n_createdelegationtoken_Response, n_createpartitions_Response, n_createtopics_Response, n_deleteacls_Response, n_deletegroups_Response, n_deleterecords_Response, n_deletetopics_Response, n_describeacls_Response, n_describeclientquotas_Response, n_describecluster_Response, n_describeconfigs_Response, n_describedelegationtoken_Response, n_describegroups_Response, n_describelogdirs_Response, n_describeproducers_Response, n_describequorum_Response, n_describetransactions_Response, n_describeuserscramcredentials_Response, n_electleaders_Response, n_endquorumepoch_Response, n_endtxn_Response, n_envelope_Response, n_expiredelegationtoken_Response, n_fetch_Response, n_fetchsnapshot_Response, n_findcoordinator_Response, n_heartbeat_Response, n_incrementalalterconfigs_Response, n_initproducerid_Response, n_joingroup_Response, n_leaderandisr_Response, n_leavegroup_Response, n_listgroups_Response, n_listoffsets_Response, n_listpartitionreassignments_Response, n_listtransactions_Response, n_metadata_Response, n_offsetcommit_Response, n_offsetdelete_Response, n_offsetfetch_Response, n_offsetforleaderepoch_Response, n_produce_Response, n_renewdelegationtoken_Response, n_saslauthenticate_Response, n_saslhandshake_Response, n_stopreplica_Response, n_syncgroup_Response, n_txnoffsetcommit_Response, n_unregisterbroker_Response, n_updatefeatures_Response, n_updatemetadata_Response, n_vote_Response, n_writetxnmarkers_Response]

/-- in the order of `requests`, `responses`, and the request and response headers -/
def headerNames : List NT := [
  n_request_Header, n_response_Header]

end Verif.Kafka.Gen
