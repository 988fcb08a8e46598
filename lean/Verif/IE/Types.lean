/-
IE type numbers (/repo/ie/ie.go:20-296) and the default set of grouped types
(/repo/ie/ie_grouped.go:10-98). Generated from the Go constants.
-/
namespace Pfcp

/-- /repo/ie/ie.go:17 `type IEType uint16`. -/
abbrev IEType := UInt16

namespace T
/-- /repo/ie/ie.go:22 -/
abbrev CreatePDR : IEType := 1
/-- /repo/ie/ie.go:23 -/
abbrev PDI : IEType := 2
/-- /repo/ie/ie.go:24 -/
abbrev CreateFAR : IEType := 3
/-- /repo/ie/ie.go:25 -/
abbrev ForwardingParameters : IEType := 4
/-- /repo/ie/ie.go:26 -/
abbrev DuplicatingParameters : IEType := 5
/-- /repo/ie/ie.go:27 -/
abbrev CreateURR : IEType := 6
/-- /repo/ie/ie.go:28 -/
abbrev CreateQER : IEType := 7
/-- /repo/ie/ie.go:29 -/
abbrev CreatedPDR : IEType := 8
/-- /repo/ie/ie.go:30 -/
abbrev UpdatePDR : IEType := 9
/-- /repo/ie/ie.go:31 -/
abbrev UpdateFAR : IEType := 10
/-- /repo/ie/ie.go:32 -/
abbrev UpdateForwardingParameters : IEType := 11
/-- /repo/ie/ie.go:33 -/
abbrev UpdateBARWithinSessionReportResponse : IEType := 12
/-- /repo/ie/ie.go:34 -/
abbrev UpdateURR : IEType := 13
/-- /repo/ie/ie.go:35 -/
abbrev UpdateQER : IEType := 14
/-- /repo/ie/ie.go:36 -/
abbrev RemovePDR : IEType := 15
/-- /repo/ie/ie.go:37 -/
abbrev RemoveFAR : IEType := 16
/-- /repo/ie/ie.go:38 -/
abbrev RemoveURR : IEType := 17
/-- /repo/ie/ie.go:39 -/
abbrev RemoveQER : IEType := 18
/-- /repo/ie/ie.go:40 -/
abbrev Cause : IEType := 19
/-- /repo/ie/ie.go:41 -/
abbrev SourceInterface : IEType := 20
/-- /repo/ie/ie.go:42 -/
abbrev FTEID : IEType := 21
/-- /repo/ie/ie.go:43 -/
abbrev NetworkInstance : IEType := 22
/-- /repo/ie/ie.go:44 -/
abbrev SDFFilter : IEType := 23
/-- /repo/ie/ie.go:45 -/
abbrev ApplicationID : IEType := 24
/-- /repo/ie/ie.go:46 -/
abbrev GateStatus : IEType := 25
/-- /repo/ie/ie.go:47 -/
abbrev MBR : IEType := 26
/-- /repo/ie/ie.go:48 -/
abbrev GBR : IEType := 27
/-- /repo/ie/ie.go:49 -/
abbrev QERCorrelationID : IEType := 28
/-- /repo/ie/ie.go:50 -/
abbrev Precedence : IEType := 29
/-- /repo/ie/ie.go:51 -/
abbrev TransportLevelMarking : IEType := 30
/-- /repo/ie/ie.go:52 -/
abbrev VolumeThreshold : IEType := 31
/-- /repo/ie/ie.go:53 -/
abbrev TimeThreshold : IEType := 32
/-- /repo/ie/ie.go:54 -/
abbrev MonitoringTime : IEType := 33
/-- /repo/ie/ie.go:55 -/
abbrev SubsequentVolumeThreshold : IEType := 34
/-- /repo/ie/ie.go:56 -/
abbrev SubsequentTimeThreshold : IEType := 35
/-- /repo/ie/ie.go:57 -/
abbrev InactivityDetectionTime : IEType := 36
/-- /repo/ie/ie.go:58 -/
abbrev ReportingTriggers : IEType := 37
/-- /repo/ie/ie.go:59 -/
abbrev RedirectInformation : IEType := 38
/-- /repo/ie/ie.go:60 -/
abbrev ReportType : IEType := 39
/-- /repo/ie/ie.go:61 -/
abbrev OffendingIE : IEType := 40
/-- /repo/ie/ie.go:62 -/
abbrev ForwardingPolicy : IEType := 41
/-- /repo/ie/ie.go:63 -/
abbrev DestinationInterface : IEType := 42
/-- /repo/ie/ie.go:64 -/
abbrev UPFunctionFeatures : IEType := 43
/-- /repo/ie/ie.go:65 -/
abbrev ApplyAction : IEType := 44
/-- /repo/ie/ie.go:66 -/
abbrev DownlinkDataServiceInformation : IEType := 45
/-- /repo/ie/ie.go:67 -/
abbrev DownlinkDataNotificationDelay : IEType := 46
/-- /repo/ie/ie.go:68 -/
abbrev DLBufferingDuration : IEType := 47
/-- /repo/ie/ie.go:69 -/
abbrev DLBufferingSuggestedPacketCount : IEType := 48
/-- /repo/ie/ie.go:70 -/
abbrev PFCPSMReqFlags : IEType := 49
/-- /repo/ie/ie.go:71 -/
abbrev PFCPSRRspFlags : IEType := 50
/-- /repo/ie/ie.go:72 -/
abbrev LoadControlInformation : IEType := 51
/-- /repo/ie/ie.go:73 -/
abbrev SequenceNumber : IEType := 52
/-- /repo/ie/ie.go:74 -/
abbrev Metric : IEType := 53
/-- /repo/ie/ie.go:75 -/
abbrev OverloadControlInformation : IEType := 54
/-- /repo/ie/ie.go:76 -/
abbrev Timer : IEType := 55
/-- /repo/ie/ie.go:77 -/
abbrev PDRID : IEType := 56
/-- /repo/ie/ie.go:78 -/
abbrev FSEID : IEType := 57
/-- /repo/ie/ie.go:79 -/
abbrev ApplicationIDsPFDs : IEType := 58
/-- /repo/ie/ie.go:80 -/
abbrev PFDContext : IEType := 59
/-- /repo/ie/ie.go:81 -/
abbrev NodeID : IEType := 60
/-- /repo/ie/ie.go:82 -/
abbrev PFDContents : IEType := 61
/-- /repo/ie/ie.go:83 -/
abbrev MeasurementMethod : IEType := 62
/-- /repo/ie/ie.go:84 -/
abbrev UsageReportTrigger : IEType := 63
/-- /repo/ie/ie.go:85 -/
abbrev MeasurementPeriod : IEType := 64
/-- /repo/ie/ie.go:86 -/
abbrev FQCSID : IEType := 65
/-- /repo/ie/ie.go:87 -/
abbrev VolumeMeasurement : IEType := 66
/-- /repo/ie/ie.go:88 -/
abbrev DurationMeasurement : IEType := 67
/-- /repo/ie/ie.go:89 -/
abbrev ApplicationDetectionInformation : IEType := 68
/-- /repo/ie/ie.go:90 -/
abbrev TimeOfFirstPacket : IEType := 69
/-- /repo/ie/ie.go:91 -/
abbrev TimeOfLastPacket : IEType := 70
/-- /repo/ie/ie.go:92 -/
abbrev QuotaHoldingTime : IEType := 71
/-- /repo/ie/ie.go:93 -/
abbrev DroppedDLTrafficThreshold : IEType := 72
/-- /repo/ie/ie.go:94 -/
abbrev VolumeQuota : IEType := 73
/-- /repo/ie/ie.go:95 -/
abbrev TimeQuota : IEType := 74
/-- /repo/ie/ie.go:96 -/
abbrev StartTime : IEType := 75
/-- /repo/ie/ie.go:97 -/
abbrev EndTime : IEType := 76
/-- /repo/ie/ie.go:98 -/
abbrev QueryURR : IEType := 77
/-- /repo/ie/ie.go:99 -/
abbrev UsageReportWithinSessionModificationResponse : IEType := 78
/-- /repo/ie/ie.go:100 -/
abbrev UsageReportWithinSessionDeletionResponse : IEType := 79
/-- /repo/ie/ie.go:101 -/
abbrev UsageReportWithinSessionReportRequest : IEType := 80
/-- /repo/ie/ie.go:102 -/
abbrev URRID : IEType := 81
/-- /repo/ie/ie.go:103 -/
abbrev LinkedURRID : IEType := 82
/-- /repo/ie/ie.go:104 -/
abbrev DownlinkDataReport : IEType := 83
/-- /repo/ie/ie.go:105 -/
abbrev OuterHeaderCreation : IEType := 84
/-- /repo/ie/ie.go:106 -/
abbrev CreateBAR : IEType := 85
/-- /repo/ie/ie.go:107 -/
abbrev UpdateBARWithinSessionModificationRequest : IEType := 86
/-- /repo/ie/ie.go:108 -/
abbrev RemoveBAR : IEType := 87
/-- /repo/ie/ie.go:109 -/
abbrev BARID : IEType := 88
/-- /repo/ie/ie.go:110 -/
abbrev CPFunctionFeatures : IEType := 89
/-- /repo/ie/ie.go:111 -/
abbrev UsageInformation : IEType := 90
/-- /repo/ie/ie.go:112 -/
abbrev ApplicationInstanceID : IEType := 91
/-- /repo/ie/ie.go:113 -/
abbrev FlowInformation : IEType := 92
/-- /repo/ie/ie.go:114 -/
abbrev UEIPAddress : IEType := 93
/-- /repo/ie/ie.go:115 -/
abbrev PacketRate : IEType := 94
/-- /repo/ie/ie.go:116 -/
abbrev OuterHeaderRemoval : IEType := 95
/-- /repo/ie/ie.go:117 -/
abbrev RecoveryTimeStamp : IEType := 96
/-- /repo/ie/ie.go:118 -/
abbrev DLFlowLevelMarking : IEType := 97
/-- /repo/ie/ie.go:119 -/
abbrev HeaderEnrichment : IEType := 98
/-- /repo/ie/ie.go:120 -/
abbrev ErrorIndicationReport : IEType := 99
/-- /repo/ie/ie.go:121 -/
abbrev MeasurementInformation : IEType := 100
/-- /repo/ie/ie.go:122 -/
abbrev NodeReportType : IEType := 101
/-- /repo/ie/ie.go:123 -/
abbrev UserPlanePathFailureReport : IEType := 102
/-- /repo/ie/ie.go:124 -/
abbrev RemoteGTPUPeer : IEType := 103
/-- /repo/ie/ie.go:125 -/
abbrev URSEQN : IEType := 104
/-- /repo/ie/ie.go:126 -/
abbrev UpdateDuplicatingParameters : IEType := 105
/-- /repo/ie/ie.go:127 -/
abbrev ActivatePredefinedRules : IEType := 106
/-- /repo/ie/ie.go:128 -/
abbrev DeactivatePredefinedRules : IEType := 107
/-- /repo/ie/ie.go:129 -/
abbrev FARID : IEType := 108
/-- /repo/ie/ie.go:130 -/
abbrev QERID : IEType := 109
/-- /repo/ie/ie.go:131 -/
abbrev OCIFlags : IEType := 110
/-- /repo/ie/ie.go:132 -/
abbrev PFCPAssociationReleaseRequest : IEType := 111
/-- /repo/ie/ie.go:133 -/
abbrev GracefulReleasePeriod : IEType := 112
/-- /repo/ie/ie.go:134 -/
abbrev PDNType : IEType := 113
/-- /repo/ie/ie.go:135 -/
abbrev FailedRuleID : IEType := 114
/-- /repo/ie/ie.go:136 -/
abbrev TimeQuotaMechanism : IEType := 115
/-- /repo/ie/ie.go:137 -/
abbrev UserPlaneIPResourceInformation : IEType := 116
/-- /repo/ie/ie.go:138 -/
abbrev UserPlaneInactivityTimer : IEType := 117
/-- /repo/ie/ie.go:139 -/
abbrev AggregatedURRs : IEType := 118
/-- /repo/ie/ie.go:140 -/
abbrev Multiplier : IEType := 119
/-- /repo/ie/ie.go:141 -/
abbrev AggregatedURRID : IEType := 120
/-- /repo/ie/ie.go:142 -/
abbrev SubsequentVolumeQuota : IEType := 121
/-- /repo/ie/ie.go:143 -/
abbrev SubsequentTimeQuota : IEType := 122
/-- /repo/ie/ie.go:144 -/
abbrev RQI : IEType := 123
/-- /repo/ie/ie.go:145 -/
abbrev QFI : IEType := 124
/-- /repo/ie/ie.go:146 -/
abbrev QueryURRReference : IEType := 125
/-- /repo/ie/ie.go:147 -/
abbrev AdditionalUsageReportsInformation : IEType := 126
/-- /repo/ie/ie.go:148 -/
abbrev CreateTrafficEndpoint : IEType := 127
/-- /repo/ie/ie.go:149 -/
abbrev CreatedTrafficEndpoint : IEType := 128
/-- /repo/ie/ie.go:150 -/
abbrev UpdateTrafficEndpoint : IEType := 129
/-- /repo/ie/ie.go:151 -/
abbrev RemoveTrafficEndpoint : IEType := 130
/-- /repo/ie/ie.go:152 -/
abbrev TrafficEndpointID : IEType := 131
/-- /repo/ie/ie.go:153 -/
abbrev EthernetPacketFilter : IEType := 132
/-- /repo/ie/ie.go:154 -/
abbrev MACAddress : IEType := 133
/-- /repo/ie/ie.go:155 -/
abbrev CTAG : IEType := 134
/-- /repo/ie/ie.go:156 -/
abbrev STAG : IEType := 135
/-- /repo/ie/ie.go:157 -/
abbrev Ethertype : IEType := 136
/-- /repo/ie/ie.go:158 -/
abbrev Proxying : IEType := 137
/-- /repo/ie/ie.go:159 -/
abbrev EthernetFilterID : IEType := 138
/-- /repo/ie/ie.go:160 -/
abbrev EthernetFilterProperties : IEType := 139
/-- /repo/ie/ie.go:161 -/
abbrev SuggestedBufferingPacketsCount : IEType := 140
/-- /repo/ie/ie.go:162 -/
abbrev UserID : IEType := 141
/-- /repo/ie/ie.go:163 -/
abbrev EthernetPDUSessionInformation : IEType := 142
/-- /repo/ie/ie.go:164 -/
abbrev EthernetTrafficInformation : IEType := 143
/-- /repo/ie/ie.go:165 -/
abbrev MACAddressesDetected : IEType := 144
/-- /repo/ie/ie.go:166 -/
abbrev MACAddressesRemoved : IEType := 145
/-- /repo/ie/ie.go:167 -/
abbrev EthernetInactivityTimer : IEType := 146
/-- /repo/ie/ie.go:168 -/
abbrev AdditionalMonitoringTime : IEType := 147
/-- /repo/ie/ie.go:169 -/
abbrev EventQuota : IEType := 148
/-- /repo/ie/ie.go:170 -/
abbrev EventThreshold : IEType := 149
/-- /repo/ie/ie.go:171 -/
abbrev SubsequentEventQuota : IEType := 150
/-- /repo/ie/ie.go:172 -/
abbrev SubsequentEventThreshold : IEType := 151
/-- /repo/ie/ie.go:173 -/
abbrev TraceInformation : IEType := 152
/-- /repo/ie/ie.go:174 -/
abbrev FramedRoute : IEType := 153
/-- /repo/ie/ie.go:175 -/
abbrev FramedRouting : IEType := 154
/-- /repo/ie/ie.go:176 -/
abbrev FramedIPv6Route : IEType := 155
/-- /repo/ie/ie.go:177 -/
abbrev EventTimeStamp : IEType := 156
/-- /repo/ie/ie.go:178 -/
abbrev AveragingWindow : IEType := 157
/-- /repo/ie/ie.go:179 -/
abbrev PagingPolicyIndicator : IEType := 158
/-- /repo/ie/ie.go:180 -/
abbrev APNDNN : IEType := 159
/-- /repo/ie/ie.go:181 -/
abbrev TGPPInterfaceType : IEType := 160
/-- /repo/ie/ie.go:182 -/
abbrev PFCPSRReqFlags : IEType := 161
/-- /repo/ie/ie.go:183 -/
abbrev PFCPAUReqFlags : IEType := 162
/-- /repo/ie/ie.go:184 -/
abbrev ActivationTime : IEType := 163
/-- /repo/ie/ie.go:185 -/
abbrev DeactivationTime : IEType := 164
/-- /repo/ie/ie.go:186 -/
abbrev CreateMAR : IEType := 165
/-- /repo/ie/ie.go:187 -/
abbrev TGPPAccessForwardingActionInformation : IEType := 166
/-- /repo/ie/ie.go:188 -/
abbrev NonTGPPAccessForwardingActionInformation : IEType := 167
/-- /repo/ie/ie.go:189 -/
abbrev RemoveMAR : IEType := 168
/-- /repo/ie/ie.go:190 -/
abbrev UpdateMAR : IEType := 169
/-- /repo/ie/ie.go:191 -/
abbrev MARID : IEType := 170
/-- /repo/ie/ie.go:192 -/
abbrev SteeringFunctionality : IEType := 171
/-- /repo/ie/ie.go:193 -/
abbrev SteeringMode : IEType := 172
/-- /repo/ie/ie.go:194 -/
abbrev Weight : IEType := 173
/-- /repo/ie/ie.go:195 -/
abbrev Priority : IEType := 174
/-- /repo/ie/ie.go:196 -/
abbrev UpdateTGPPAccessForwardingActionInformation : IEType := 175
/-- /repo/ie/ie.go:197 -/
abbrev UpdateNonTGPPAccessForwardingActionInformation : IEType := 176
/-- /repo/ie/ie.go:198 -/
abbrev UEIPAddressPoolIdentity : IEType := 177
/-- /repo/ie/ie.go:199 -/
abbrev AlternativeSMFIPAddress : IEType := 178
/-- /repo/ie/ie.go:200 -/
abbrev PacketReplicationAndDetectionCarryOnInformation : IEType := 179
/-- /repo/ie/ie.go:201 -/
abbrev SMFSetID : IEType := 180
/-- /repo/ie/ie.go:202 -/
abbrev QuotaValidityTime : IEType := 181
/-- /repo/ie/ie.go:203 -/
abbrev NumberOfReports : IEType := 182
/-- /repo/ie/ie.go:204 -/
abbrev PFCPSessionRetentionInformation : IEType := 183
/-- /repo/ie/ie.go:205 -/
abbrev PFCPASRspFlags : IEType := 184
/-- /repo/ie/ie.go:206 -/
abbrev CPPFCPEntityIPAddress : IEType := 185
/-- /repo/ie/ie.go:207 -/
abbrev PFCPSEReqFlags : IEType := 186
/-- /repo/ie/ie.go:208 -/
abbrev UserPlanePathRecoveryReport : IEType := 187
/-- /repo/ie/ie.go:209 -/
abbrev IPMulticastAddressingInfo : IEType := 188
/-- /repo/ie/ie.go:210 -/
abbrev JoinIPMulticastInformationWithinUsageReport : IEType := 189
/-- /repo/ie/ie.go:211 -/
abbrev LeaveIPMulticastInformationWithinUsageReport : IEType := 190
/-- /repo/ie/ie.go:212 -/
abbrev IPMulticastAddress : IEType := 191
/-- /repo/ie/ie.go:213 -/
abbrev SourceIPAddress : IEType := 192
/-- /repo/ie/ie.go:214 -/
abbrev PacketRateStatus : IEType := 193
/-- /repo/ie/ie.go:215 -/
abbrev CreateBridgeInfoForTSC : IEType := 194
/-- /repo/ie/ie.go:216 -/
abbrev CreatedBridgeInfoForTSC : IEType := 195
/-- /repo/ie/ie.go:217 -/
abbrev DSTTPortNumber : IEType := 196
/-- /repo/ie/ie.go:218 -/
abbrev NWTTPortNumber : IEType := 197
/-- /repo/ie/ie.go:219 -/
abbrev TSNBridgeID : IEType := 198
/-- /repo/ie/ie.go:220 -/
abbrev TSCManagementInformationWithinSessionModificationRequest : IEType := 199
/-- /repo/ie/ie.go:221 -/
abbrev TSCManagementInformationWithinSessionModificationResponse : IEType := 200
/-- /repo/ie/ie.go:222 -/
abbrev TSCManagementInformationWithinSessionReportRequest : IEType := 201
/-- /repo/ie/ie.go:223 -/
abbrev PortManagementInformationForTSCWithinSessionModificationRequest : IEType := 199
/-- /repo/ie/ie.go:224 -/
abbrev PortManagementInformationForTSCWithinSessionModificationResponse : IEType := 200
/-- /repo/ie/ie.go:225 -/
abbrev PortManagementInformationForTSCWithinSessionReportRequest : IEType := 201
/-- /repo/ie/ie.go:226 -/
abbrev PortManagementInformationContainer : IEType := 202
/-- /repo/ie/ie.go:227 -/
abbrev ClockDriftControlInformation : IEType := 203
/-- /repo/ie/ie.go:228 -/
abbrev RequestedClockDriftInformation : IEType := 204
/-- /repo/ie/ie.go:229 -/
abbrev ClockDriftReport : IEType := 205
/-- /repo/ie/ie.go:230 -/
abbrev TSNTimeDomainNumber : IEType := 206
/-- /repo/ie/ie.go:231 -/
abbrev TimeOffsetThreshold : IEType := 207
/-- /repo/ie/ie.go:232 -/
abbrev CumulativeRateRatioThreshold : IEType := 208
/-- /repo/ie/ie.go:233 -/
abbrev TimeOffsetMeasurement : IEType := 209
/-- /repo/ie/ie.go:234 -/
abbrev CumulativeRateRatioMeasurement : IEType := 210
/-- /repo/ie/ie.go:235 -/
abbrev RemoveSRR : IEType := 211
/-- /repo/ie/ie.go:236 -/
abbrev CreateSRR : IEType := 212
/-- /repo/ie/ie.go:237 -/
abbrev UpdateSRR : IEType := 213
/-- /repo/ie/ie.go:238 -/
abbrev SessionReport : IEType := 214
/-- /repo/ie/ie.go:239 -/
abbrev SRRID : IEType := 215
/-- /repo/ie/ie.go:240 -/
abbrev AccessAvailabilityControlInformation : IEType := 216
/-- /repo/ie/ie.go:241 -/
abbrev RequestedAccessAvailabilityInformation : IEType := 217
/-- /repo/ie/ie.go:242 -/
abbrev AccessAvailabilityReport : IEType := 218
/-- /repo/ie/ie.go:243 -/
abbrev AccessAvailabilityInformation : IEType := 219
/-- /repo/ie/ie.go:244 -/
abbrev ProvideATSSSControlInformation : IEType := 220
/-- /repo/ie/ie.go:245 -/
abbrev ATSSSControlParameters : IEType := 221
/-- /repo/ie/ie.go:246 -/
abbrev MPTCPControlInformation : IEType := 222
/-- /repo/ie/ie.go:247 -/
abbrev ATSSSLLControlInformation : IEType := 223
/-- /repo/ie/ie.go:248 -/
abbrev PMFControlInformation : IEType := 224
/-- /repo/ie/ie.go:249 -/
abbrev MPTCPParameters : IEType := 225
/-- /repo/ie/ie.go:250 -/
abbrev ATSSSLLParameters : IEType := 226
/-- /repo/ie/ie.go:251 -/
abbrev PMFParameters : IEType := 227
/-- /repo/ie/ie.go:252 -/
abbrev MPTCPAddressInformation : IEType := 228
/-- /repo/ie/ie.go:253 -/
abbrev UELinkSpecificIPAddress : IEType := 229
/-- /repo/ie/ie.go:254 -/
abbrev PMFAddressInformation : IEType := 230
/-- /repo/ie/ie.go:255 -/
abbrev ATSSSLLInformation : IEType := 231
/-- /repo/ie/ie.go:256 -/
abbrev DataNetworkAccessIdentifier : IEType := 232
/-- /repo/ie/ie.go:257 -/
abbrev UEIPAddressPoolInformation : IEType := 233
/-- /repo/ie/ie.go:258 -/
abbrev AveragePacketDelay : IEType := 234
/-- /repo/ie/ie.go:259 -/
abbrev MinimumPacketDelay : IEType := 235
/-- /repo/ie/ie.go:260 -/
abbrev MaximumPacketDelay : IEType := 236
/-- /repo/ie/ie.go:261 -/
abbrev QoSReportTrigger : IEType := 237
/-- /repo/ie/ie.go:262 -/
abbrev GTPUPathQoSControlInformation : IEType := 238
/-- /repo/ie/ie.go:263 -/
abbrev GTPUPathQoSReport : IEType := 239
/-- /repo/ie/ie.go:264 -/
abbrev QoSInformationInGTPUPathQoSReport : IEType := 240
/-- /repo/ie/ie.go:265 -/
abbrev GTPUPathInterfaceType : IEType := 241
/-- /repo/ie/ie.go:266 -/
abbrev QoSMonitoringPerQoSFlowControlInformation : IEType := 242
/-- /repo/ie/ie.go:267 -/
abbrev RequestedQoSMonitoring : IEType := 243
/-- /repo/ie/ie.go:268 -/
abbrev ReportingFrequency : IEType := 244
/-- /repo/ie/ie.go:269 -/
abbrev PacketDelayThresholds : IEType := 245
/-- /repo/ie/ie.go:270 -/
abbrev MinimumWaitTime : IEType := 246
/-- /repo/ie/ie.go:271 -/
abbrev QoSMonitoringReport : IEType := 247
/-- /repo/ie/ie.go:272 -/
abbrev QoSMonitoringMeasurement : IEType := 248
/-- /repo/ie/ie.go:273 -/
abbrev MTEDTControlInformation : IEType := 249
/-- /repo/ie/ie.go:274 -/
abbrev DLDataPacketsSize : IEType := 250
/-- /repo/ie/ie.go:275 -/
abbrev QERControlIndications : IEType := 251
/-- /repo/ie/ie.go:276 -/
abbrev PacketRateStatusReport : IEType := 252
/-- /repo/ie/ie.go:277 -/
abbrev NFInstanceID : IEType := 253
/-- /repo/ie/ie.go:278 -/
abbrev EthernetContextInformation : IEType := 254
/-- /repo/ie/ie.go:279 -/
abbrev RedundantTransmissionParameters : IEType := 255
/-- /repo/ie/ie.go:280 -/
abbrev UpdatedPDR : IEType := 256
/-- /repo/ie/ie.go:281 -/
abbrev SNSSAI : IEType := 257
/-- /repo/ie/ie.go:282 -/
abbrev IPVersion : IEType := 258
/-- /repo/ie/ie.go:283 -/
abbrev PFCPASReqFlags : IEType := 259
/-- /repo/ie/ie.go:284 -/
abbrev DataStatus : IEType := 260
/-- /repo/ie/ie.go:285 -/
abbrev ProvideRDSConfigurationInformation : IEType := 261
/-- /repo/ie/ie.go:286 -/
abbrev RDSConfigurationInformation : IEType := 262
/-- /repo/ie/ie.go:287 -/
abbrev QueryPacketRateStatusWithinSessionModificationRequest : IEType := 263
/-- /repo/ie/ie.go:288 -/
abbrev PacketRateStatusReportWithinSessionModificationResponse : IEType := 264
/-- /repo/ie/ie.go:289 -/
abbrev MPTCPApplicableIndication : IEType := 265
/-- /repo/ie/ie.go:290 -/
abbrev BridgeManagementInformationContainer : IEType := 266
/-- /repo/ie/ie.go:291 -/
abbrev UEIPAddressUsageInformation : IEType := 267
/-- /repo/ie/ie.go:292 -/
abbrev NumberOfUEIPAddresses : IEType := 268
/-- /repo/ie/ie.go:293 -/
abbrev ValidityTimer : IEType := 269
/-- /repo/ie/ie.go:294 -/
abbrev RedundantTransmissionForwardingParameters : IEType := 270
/-- /repo/ie/ie.go:295 -/
abbrev TransportDelayReporting : IEType := 271
end T

open T in
/-- Keys of `defaultGroupedIEMap`, /repo/ie/ie_grouped.go:10-98. -/
def defaultGroupedTypes : List IEType := [
  CreatePDR,
  PDI,
  CreateFAR,
  ForwardingParameters,
  DuplicatingParameters,
  CreateURR,
  CreateQER,
  CreatedPDR,
  UpdatePDR,
  UpdateFAR,
  UpdateForwardingParameters,
  UpdateBARWithinSessionReportResponse,
  UpdateURR,
  UpdateQER,
  RemovePDR,
  RemoveFAR,
  RemoveURR,
  RemoveQER,
  LoadControlInformation,
  OverloadControlInformation,
  ApplicationIDsPFDs,
  PFDContext,
  ApplicationDetectionInformation,
  QueryURR,
  UsageReportWithinSessionModificationResponse,
  UsageReportWithinSessionDeletionResponse,
  UsageReportWithinSessionReportRequest,
  DownlinkDataReport,
  CreateBAR,
  UpdateBARWithinSessionModificationRequest,
  RemoveBAR,
  ErrorIndicationReport,
  UserPlanePathFailureReport,
  UpdateDuplicatingParameters,
  AggregatedURRs,
  CreateTrafficEndpoint,
  CreatedTrafficEndpoint,
  UpdateTrafficEndpoint,
  RemoveTrafficEndpoint,
  EthernetPacketFilter,
  EthernetTrafficInformation,
  AdditionalMonitoringTime,
  CreateMAR,
  TGPPAccessForwardingActionInformation,
  NonTGPPAccessForwardingActionInformation,
  RemoveMAR,
  UpdateMAR,
  UpdateTGPPAccessForwardingActionInformation,
  UpdateNonTGPPAccessForwardingActionInformation,
  PFCPSessionRetentionInformation,
  UserPlanePathRecoveryReport,
  IPMulticastAddressingInfo,
  JoinIPMulticastInformationWithinUsageReport,
  LeaveIPMulticastInformationWithinUsageReport,
  CreatedBridgeInfoForTSC,
  TSCManagementInformationWithinSessionModificationRequest,
  TSCManagementInformationWithinSessionModificationResponse,
  TSCManagementInformationWithinSessionReportRequest,
  ClockDriftControlInformation,
  ClockDriftReport,
  RemoveSRR,
  CreateSRR,
  UpdateSRR,
  SessionReport,
  AccessAvailabilityControlInformation,
  AccessAvailabilityReport,
  ProvideATSSSControlInformation,
  ATSSSControlParameters,
  MPTCPParameters,
  ATSSSLLParameters,
  PMFParameters,
  UEIPAddressPoolInformation,
  GTPUPathQoSControlInformation,
  GTPUPathQoSReport,
  QoSInformationInGTPUPathQoSReport,
  QoSMonitoringPerQoSFlowControlInformation,
  QoSMonitoringReport,
  PacketRateStatusReport,
  EthernetContextInformation,
  RedundantTransmissionParameters,
  UpdatedPDR,
  ProvideRDSConfigurationInformation,
  QueryPacketRateStatusWithinSessionModificationRequest,
  PacketRateStatusReportWithinSessionModificationResponse,
  UEIPAddressUsageInformation,
  RedundantTransmissionForwardingParameters,
  TransportDelayReporting]

end Pfcp
