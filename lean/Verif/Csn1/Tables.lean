import Verif.Csn1.Dec

/-!
# The descriptor tables

The `CSN_DESCR` tables of `/repo/src/rlcmac/csn1_ts_24_008.c`, `csn1_ts_44_018.c` and
`csn1_ts_44_060.c` which the decoding functions reach, line by line.  Member offsets and sizes are those
of the structures in `/repo/include/osmocom/gprs/rlcmac/csn1_defs.h` laid out for x86-64.
-/
namespace Verif.Csn1

/-- `FDD_Target_Cell_t` (`csn1_ts_44_060.c:842-848`). -/
def t_FDD_Target_Cell : List Csn := [
  .uint 0 2 14 false,
  .uint 2 1 1 false,
  .nextExist false 3 1 1 false,
  .uint 4 1 3 false,
  .uint 6 2 9 false]

/-- `TDD_Target_Cell_t` (`csn1_ts_44_060.c:851-858`). -/
def t_TDD_Target_Cell : List Csn := [
  .uint 0 2 14 false,
  .uint 2 1 1 false,
  .nextExist false 3 1 1 false,
  .uint 4 1 3 false,
  .uint 6 2 7 false,
  .uint 8 1 1 false]

/-- `EUTRAN_Target_Cell_t` (`csn1_ts_44_060.c:861-866`). -/
def t_EUTRAN_Target_Cell : List Csn := [
  .uint 0 2 16 false,
  .nextExist false 2 1 1 false,
  .uint 3 1 3 false,
  .uint 4 2 9 false]

/-- `PLMN_t` (`csn1_ts_44_060.c:47-54`). -/
def t_PLMN : List Csn := [
  .uint 1 1 4 false,
  .uint 0 1 4 false,
  .uint 3 1 4 false,
  .uint 2 1 4 false,
  .uint 5 1 4 false,
  .uint 4 1 4 false]

/-- `UTRAN_CSG_Target_Cell_t` (`csn1_ts_44_060.c:869-873`). -/
def t_UTRAN_CSG_Target_Cell : List Csn := [
  .uint 0 4 28 false,
  .nextExist false 4 1 1 false,
  .typ 5 false t_PLMN]

/-- `EUTRAN_CSG_Target_Cell_t` (`csn1_ts_44_060.c:876-881`). -/
def t_EUTRAN_CSG_Target_Cell : List Csn := [
  .uint 0 4 28 false,
  .uint 4 2 16 false,
  .nextExist false 6 1 1 false,
  .typ 7 false t_PLMN]

/-- `PCCF_AdditionsR9_t` (`csn1_ts_44_060.c:884-889`). -/
def t_PCCF_AdditionsR9 : List Csn := [
  .nextExist false 0 1 1 false,
  .typ 4 false t_UTRAN_CSG_Target_Cell,
  .nextExist false 16 1 1 false,
  .typ 20 false t_EUTRAN_CSG_Target_Cell]

/-- `PCCF_AdditionsR8_t` (`csn1_ts_44_060.c:892-897`). -/
def t_PCCF_AdditionsR8 : List Csn := [
  .nextExist false 0 1 1 false,
  .typ 2 false t_EUTRAN_Target_Cell,
  .nextExist false 8 1 1 true,
  .typ 12 false t_PCCF_AdditionsR9]

/-- `PCCF_AdditionsR5_t` (`csn1_ts_44_060.c:900-905`). -/
def t_PCCF_AdditionsR5 : List Csn := [
  .nextExist false 0 1 1 false,
  .uint 1 1 4 false,
  .nextExist false 2 1 1 true,
  .typ 4 false t_PCCF_AdditionsR8]

/-- `PCCF_AdditionsR99_t` (`csn1_ts_44_060.c:908-915`). -/
def t_PCCF_AdditionsR99 : List Csn := [
  .nextExist false 0 1 1 false,
  .typ 2 false t_FDD_Target_Cell,
  .nextExist false 10 1 1 false,
  .typ 12 false t_TDD_Target_Cell,
  .nextExist false 22 1 1 true,
  .typ 24 false t_PCCF_AdditionsR5]

/-- `Packet_Cell_Change_Failure_t` (`csn1_ts_44_060.c:919-936`). -/
def t_Packet_Cell_Change_Failure : List Csn := [
  .uint 1 1 2 false,
  .uint 2 1 5 false,
  .uint 3 1 1 false,
  .uint 0 1 6 false,
  .uint 4 4 32 false,
  .uint 8 2 10 false,
  .uint 10 1 6 false,
  .uint 11 1 4 false,
  .nextExist false 12 4 1 true,
  .typ 16 false t_PCCF_AdditionsR99,
  .padding]

/-- `Packet_Control_Acknowledgement_AdditionsR6_t` (`csn1_ts_44_060.c:332-335`). -/
def t_Packet_Control_Acknowledgement_AdditionsR6 : List Csn := [
  .nextExist false 0 1 1 false,
  .uint 2 2 9 false]

/-- `Packet_Control_Acknowledgement_AdditionsR5_t` (`csn1_ts_44_060.c:338-346`). -/
def t_Packet_Control_Acknowledgement_AdditionsR5 : List Csn := [
  .nextExist false 0 1 1 false,
  .uint 1 1 3 false,
  .nextExist false 2 1 1 false,
  .uint 3 1 4 false,
  .nextExist false 4 4 1 true,
  .typ 8 false t_Packet_Control_Acknowledgement_AdditionsR6]

/-- `Packet_Control_Acknowledgement_t` (`csn1_ts_44_060.c:349-360`). -/
def t_Packet_Control_Acknowledgement : List Csn := [
  .uint 1 1 2 false,
  .uint 2 1 5 false,
  .bit 3 1 false,
  .uint 0 1 6 false,
  .uint 4 4 32 false,
  .uint 8 1 2 false,
  .nextExist false 12 4 1 true,
  .typ 16 false t_Packet_Control_Acknowledgement_AdditionsR5,
  .padding]

/-- `Ack_Nack_Description_t` (`csn1_ts_44_060.c:81-85`). -/
def t_Ack_Nack_Description : List Csn := [
  .uint 0 1 1 false,
  .uint 1 1 7 false,
  .bitmap 2 8 64]

/-- `Channel_Request_Description_t` (`csn1_ts_44_060.c:423-429`). -/
def t_Channel_Request_Description : List Csn := [
  .uint 0 1 4 false,
  .uint 1 1 2 false,
  .uint 2 1 1 false,
  .uint 3 1 1 false,
  .uint 4 2 16 false]

/-- `Channel_Quality_Report_t` (`csn1_ts_44_060.c:137-165`). -/
def t_Channel_Quality_Report : List Csn := [
  .uint 0 1 6 false,
  .uint 1 1 3 false,
  .uint 2 1 6 false,
  .nextExist false 3 1 1 false,
  .uint 4 1 4 false,
  .nextExist false 5 1 1 false,
  .uint 6 1 4 false,
  .nextExist false 7 1 1 false,
  .uint 8 1 4 false,
  .nextExist false 9 1 1 false,
  .uint 10 1 4 false,
  .nextExist false 11 1 1 false,
  .uint 12 1 4 false,
  .nextExist false 13 1 1 false,
  .uint 14 1 4 false,
  .nextExist false 15 1 1 false,
  .uint 16 1 4 false,
  .nextExist false 17 1 1 false,
  .uint 18 1 4 false]

/-- `PD_AckNack_AdditionsR99_t` (`csn1_ts_44_060.c:779-782`). -/
def t_PD_AckNack_AdditionsR99 : List Csn := [
  .nextExist false 0 4 1 false,
  .uint 4 1 7 false]

/-- `Packet_Downlink_Ack_Nack_t` (`csn1_ts_44_060.c:785-801`). -/
def t_Packet_Downlink_Ack_Nack : List Csn := [
  .uint 1 1 2 false,
  .uint 2 1 5 false,
  .bit 3 1 false,
  .uint 0 1 6 false,
  .uint 4 1 5 false,
  .typ 5 false t_Ack_Nack_Description,
  .nextExist false 15 1 1 false,
  .typ 16 false t_Channel_Request_Description,
  .typ 22 false t_Channel_Quality_Report,
  .nextExist false 44 4 1 true,
  .typ 48 false t_PD_AckNack_AdditionsR99,
  .padding]

/-- `Packet_Uplink_Dummy_Control_Block_t` (`csn1_ts_44_060.c:375-384`). -/
def t_Packet_Uplink_Dummy_Control_Block : List Csn := [
  .uint 1 1 2 false,
  .uint 2 1 5 false,
  .bit 3 1 false,
  .uint 0 1 6 false,
  .uint 4 4 32 false,
  .padding]

/-- `Serving_Cell_Data_t` (`csn1_ts_44_060.c:3129-3132`). -/
def t_Serving_Cell_Data : List Csn := [
  .uint 0 1 6 false,
  .fixed 1 0]

/-- `NC_Measurements_t` (`csn1_ts_44_060.c:3135-3141`). -/
def t_NC_Measurements : List Csn := [
  .uint 0 1 6 false,
  .nextExist false 1 1 1 false,
  .uint 2 1 6 false,
  .uint 3 1 6 false]

/-- `NC_Measurement_Report_t` (`csn1_ts_44_060.c:3157-3162`). -/
def t_NC_Measurement_Report : List Csn := [
  .uint 0 1 1 false,
  .typ 1 false t_Serving_Cell_Data,
  .uint 2 1 3 false,
  .vtarr false 3 24 4 2 t_NC_Measurements]

/-- `EXT_Measurement_Report_t` (`csn1_ts_44_060.c:3182-3213`). -/
def t_EXT_Measurement_Report : List Csn := [
  .uint 0 1 2 false,
  .nextExist false 1 1 1 false,
  .nextExist false 2 1 1 false,
  .uint 3 1 6 false,
  .nextExist false 4 1 1 false,
  .uint 5 1 6 false,
  .nextExist false 6 1 1 false,
  .uint 7 1 6 false,
  .nextExist false 8 1 1 false,
  .uint 9 1 6 false,
  .nextExist false 10 1 1 false,
  .uint 11 1 6 false,
  .nextExist false 12 1 1 false,
  .uint 13 1 6 false,
  .nextExist false 14 1 1 false,
  .uint 15 1 6 false,
  .nextExist false 16 1 1 false,
  .uint 17 1 6 false,
  .uint 18 1 5 false,
  .vtarr false 19 36 4 18 t_NC_Measurements]

/-- `BA_USED_t` (`csn1_ts_44_060.c:3123-3126`). -/
def t_BA_USED : List Csn := [
  .uint 0 1 1 false,
  .uint 1 1 1 false]

/-- `Measurements_3G_t` (`csn1_ts_44_060.c:3216-3219`). -/
def t_Measurements_3G : List Csn := [
  .uint 0 1 7 false,
  .uint 1 1 6 false]

/-- `EUTRAN_Measurement_Report_Body_t` (`csn1_ts_44_060.c:3222-3226`). -/
def t_EUTRAN_Measurement_Report_Body : List Csn := [
  .uint 0 1 3 false,
  .uint 2 2 9 false,
  .uint 4 1 6 false]

/-- `EUTRAN_Measurement_Report_t` (`csn1_ts_44_060.c:3229-3232`). -/
def t_EUTRAN_Measurement_Report : List Csn := [
  .uintOfs 0 1 2 1,
  .vtarr false 2 24 6 0 t_EUTRAN_Measurement_Report_Body]

/-- `UTRAN_CSG_Measurement_Report_t` (`csn1_ts_44_060.c:3235-3242`). -/
def t_UTRAN_CSG_Measurement_Report : List Csn := [
  .uint 0 4 28 false,
  .nextExist false 4 1 1 false,
  .typ 5 false t_PLMN,
  .uint 12 4 27 false,
  .uint 16 4 1 false,
  .uint 20 1 6 false]

/-- `EUTRAN_CSG_Measurement_Report_t` (`csn1_ts_44_060.c:3245-3253`). -/
def t_EUTRAN_CSG_Measurement_Report : List Csn := [
  .uint 0 4 28 false,
  .uint 4 2 16 false,
  .nextExist false 6 1 1 false,
  .typ 7 false t_PLMN,
  .uint 16 4 27 false,
  .uint 20 4 1 false,
  .uint 24 1 6 false]

/-- `PMR_AdditionsR9_t` (`csn1_ts_44_060.c:3256-3261`). -/
def t_PMR_AdditionsR9 : List Csn := [
  .nextExist false 0 4 1 false,
  .typ 4 false t_UTRAN_CSG_Measurement_Report,
  .nextExist false 28 4 1 false,
  .typ 32 false t_EUTRAN_CSG_Measurement_Report]

/-- `PMR_AdditionsR8_t` (`csn1_ts_44_060.c:3264-3269`). -/
def t_PMR_AdditionsR8 : List Csn := [
  .nextExist false 0 4 1 false,
  .typ 4 false t_EUTRAN_Measurement_Report,
  .nextExist false 32 4 1 true,
  .typ 36 false t_PMR_AdditionsR9]

/-- `PMR_AdditionsR5_t` (`csn1_ts_44_060.c:3272-3277`). -/
def t_PMR_AdditionsR5 : List Csn := [
  .nextExist false 0 4 3 false,
  .uint 4 1 4 false,
  .nextExist false 8 4 1 true,
  .typ 12 false t_PMR_AdditionsR8]

/-- `PMR_AdditionsR99_t` (`csn1_ts_44_060.c:3280-3293`). -/
def t_PMR_AdditionsR99 : List Csn := [
  .nextExist false 0 4 4 false,
  .union false 4 1 2,
  .typ 5 false t_BA_USED,
  .uint 5 1 2 false,
  .uint 7 1 1 false,
  .nextExist false 8 4 2 false,
  .uintOfs 12 1 3 1,
  .vtarr true 13 12 2 12 t_Measurements_3G,
  .nextExist false 28 4 1 true,
  .typ 32 false t_PMR_AdditionsR5]

/-- `Packet_Measurement_Report_t` (`csn1_ts_44_060.c:3296-3317`). -/
def t_Packet_Measurement_Report : List Csn := [
  .uint 1 1 2 false,
  .uint 2 1 5 false,
  .uint 3 1 1 false,
  .uint 0 1 6 false,
  .uint 4 4 32 false,
  .nextExist false 8 1 1 false,
  .uint 9 1 2 false,
  .union false 10 1 2,
  .typ 11 false t_NC_Measurement_Report,
  .typ 11 false t_EXT_Measurement_Report,
  .nextExist false 68 4 1 true,
  .typ 72 false t_PMR_AdditionsR99,
  .padding]

/-- `Global_TFI_t` (`csn1_ts_44_060.c:65-69`). -/
def t_Global_TFI : List Csn := [
  .union false 0 1 2,
  .uint 1 1 5 false,
  .uint 1 1 5 false]

/-- Selectors of `PacketResourceRequestID` (`csn1_ts_44_060.c:433-437`). -/
def s_PacketResourceRequestID : List (Nat × Nat) := [(1, 0), (1, 1)]

/-- Alternatives of `PacketResourceRequestID`. -/
def c_PacketResourceRequestID : List Csn := [
  .typ 4 false t_Global_TFI,
  .uint 4 4 32 false]

/-- `PacketResourceRequestID_t` (`csn1_ts_44_060.c:440-442`). -/
def t_PacketResourceRequestID : List Csn := [
  .choice 0 1 s_PacketResourceRequestID c_PacketResourceRequestID]

/-- `DTM_EGPRS_t` (`csn1_ts_24_008.c:166-169`). -/
def t_DTM_EGPRS : List Csn := [
  .nextExist false 0 1 1 false,
  .uint 1 1 2 false]

/-- `Multislot_capability_t` (`csn1_ts_24_008.c:184-207`). -/
def t_Multislot_capability : List Csn := [
  .nextExist false 0 1 1 true,
  .uint 1 1 5 false,
  .nextExist false 2 1 2 true,
  .uint 3 1 5 false,
  .uint 4 1 1 false,
  .nextExist false 5 1 2 true,
  .uint 6 1 4 false,
  .uint 7 1 4 false,
  .nextExist false 8 1 1 true,
  .uint 9 1 5 false,
  .nextExist false 10 1 2 true,
  .uint 11 1 5 false,
  .uint 12 1 1 false,
  .nextExist false 13 1 3 true,
  .uint 14 1 2 false,
  .uint 15 1 1 false,
  .typ 16 false t_DTM_EGPRS]

/-- `DTM_EGPRS_HighMultislotClass_t` (`csn1_ts_24_008.c:172-175`). -/
def t_DTM_EGPRS_HighMultislotClass : List Csn := [
  .nextExist false 0 1 1 false,
  .uint 1 1 3 false]

/-- `DownlinkDualCarrierCapability_r7_t` (`csn1_ts_24_008.c:178-181`). -/
def t_DownlinkDualCarrierCapability_r7 : List Csn := [
  .uint 0 1 3 false,
  .uint 1 1 1 false]

/-- `Content_t` (`csn1_ts_24_008.c:210-280`). -/
def t_Content : List Csn := [
  .uint 0 1 3 false,
  .nextExist false 1 1 1 true,
  .uint 2 1 7 true,
  .uint 3 1 1 true,
  .uint 4 1 1 true,
  .uint 5 1 1 true,
  .uint 6 1 1 true,
  .nextExist false 7 1 1 true,
  .typ 8 false t_Multislot_capability,
  .nextExist false 26 1 1 true,
  .uint 27 1 2 false,
  .uint 28 1 1 true,
  .uint 29 1 1 true,
  .uint 30 1 1 true,
  .uint 31 1 1 true,
  .uint 32 1 1 true,
  .uint 33 1 1 true,
  .uint 34 1 1 true,
  .nextExist false 35 1 2 true,
  .uint 36 1 2 false,
  .uint 37 1 2 false,
  .uint 38 1 1 true,
  .nextExist false 39 1 1 true,
  .uint 40 1 2 false,
  .nextExist false 41 1 1 true,
  .uint 42 1 4 false,
  .uint 43 1 2 true,
  .uint 44 1 2 true,
  .uint 45 1 1 true,
  .uint 46 1 2 true,
  .uint 47 1 1 true,
  .uint 48 1 1 true,
  .nextExist false 49 1 2 true,
  .uint 50 1 3 false,
  .typ 51 false t_DTM_EGPRS_HighMultislotClass,
  .uint 53 1 1 true,
  .uint 54 1 1 true,
  .nextExist false 55 1 1 true,
  .typ 56 true t_DownlinkDualCarrierCapability_r7,
  .uint 58 1 1 true,
  .uint 59 1 1 true,
  .uint 60 1 1 true,
  .uint 61 1 1 true,
  .uint 62 1 2 true,
  .uint 63 1 2 true,
  .uint 64 1 1 true,
  .uint 65 1 1 true,
  .uint 66 1 2 true,
  .uint 67 1 1 true]

/-- `Additional_access_technologies_struct_t` (`csn1_ts_24_008.c:295-299`). -/
def t_Additional_access_technologies_struct : List Csn := [
  .uint 0 1 4 false,
  .uint 1 1 3 false,
  .uint 2 1 2 false]

/-- `Additional_access_technologies_t` (`csn1_ts_24_008.c:302-304`). -/
def t_Additional_access_technologies : List Csn := [
  .recTArr 1 30 3 10 0 t_Additional_access_technologies_struct]

/-- Selectors of `MS_RA_capability_value_Choice` (`csn1_ts_24_008.c:319-336`). -/
def s_MS_RA_capability_value_Choice : List (Nat × Nat) := [(4, 0), (4, 1), (4, 2), (4, 3), (4, 4), (4, 5), (4, 6), (4, 7), (4, 8), (4, 9), (4, 10), (4, 11), (4, 12), (4, 13), (4, 15)]

/-- Alternatives of `MS_RA_capability_value_Choice`. -/
def c_MS_RA_capability_value_Choice : List Csn := [
  .serialize 1 7 t_Content,
  .serialize 1 7 t_Content,
  .serialize 1 7 t_Content,
  .serialize 1 7 t_Content,
  .serialize 1 7 t_Content,
  .serialize 1 7 t_Content,
  .serialize 1 7 t_Content,
  .serialize 1 7 t_Content,
  .serialize 1 7 t_Content,
  .serialize 1 7 t_Content,
  .serialize 1 7 t_Content,
  .serialize 1 7 t_Content,
  .serialize 1 7 t_Content,
  .serialize 1 7 t_Content,
  .serialize 1 7 t_Additional_access_technologies]

/-- `MS_RA_capability_value_t` (`csn1_ts_24_008.c:339-341`). -/
def t_MS_RA_capability_value : List Csn := [
  .choice 0 1 s_MS_RA_capability_value_Choice c_MS_RA_capability_value_Choice]

/-- `MS_Radio_Access_capability2_t` (`csn1_ts_44_060.c:418-420`). -/
def t_MS_Radio_Access_capability2 : List Csn := [
  .recTArr1 1 759 69 11 0 t_MS_RA_capability_value]

/-- `InterferenceMeasurementReport_t` (`csn1_ts_44_060.c:453-456`). -/
def t_InterferenceMeasurementReport : List Csn := [
  .nextExist false 0 4 1 false,
  .uint 4 1 4 false]

/-- `EGPRS_BEP_LinkQualityMeasurements_t` (`csn1_ts_44_060.c:468-476`). -/
def t_EGPRS_BEP_LinkQualityMeasurements : List Csn := [
  .nextExist false 0 4 2 false,
  .uint 4 1 5 false,
  .uint 5 1 3 false,
  .nextExist false 8 4 2 false,
  .uint 12 1 5 false,
  .uint 13 1 3 false]

/-- `BEP_MeasurementReport_t` (`csn1_ts_44_060.c:445-450`). -/
def t_BEP_MeasurementReport : List Csn := [
  .nextExist false 0 4 3 false,
  .union false 4 1 2,
  .uint 5 1 4 false,
  .uint 5 1 4 false]

/-- `EGPRS_TimeslotLinkQualityMeasurements_t` (`csn1_ts_44_060.c:459-465`). -/
def t_EGPRS_TimeslotLinkQualityMeasurements : List Csn := [
  .nextExist false 0 4 1 false,
  .tarr 4 64 8 8 t_BEP_MeasurementReport,
  .nextExist false 68 4 1 false,
  .tarr 72 64 8 8 t_InterferenceMeasurementReport]

/-- `IU_Mode_Channel_Request_Desk_t` (`csn1_ts_44_060.c:479-492`). -/
def t_IU_Mode_Channel_Request_Desk : List Csn := [
  .uint 0 1 5 false,
  .uint 1 1 2 false,
  .nextExist false 4 4 1 false,
  .uint 8 1 8 false,
  .uint 12 4 1 false]

/-- `IU_Mode_Channel_Request_Desk_RNTI_t` (`csn1_ts_44_060.c:495-502`). -/
def t_IU_Mode_Channel_Request_Desk_RNTI : List Csn := [
  .nextExist false 0 4 1 false,
  .uint 4 1 4 false,
  .typ 8 false t_IU_Mode_Channel_Request_Desk]

/-- `Ext_Channel_Request_desc_t` (`csn1_ts_44_060.c:506-520`). -/
def t_Ext_Channel_Request_desc : List Csn := [
  .uint 0 1 7 false,
  .uint 1 1 2 false,
  .uint 2 1 1 false,
  .nextExist false 4 4 1 false,
  .uint 8 1 1 false,
  .uint 12 4 1 false]

/-- `EGPRS_BEP_LinkQualityMeasurements_type2_t` (`csn1_ts_44_060.c:523-553`). -/
def t_EGPRS_BEP_LinkQualityMeasurements_type2 : List Csn := [
  .nextExist false 0 4 1 false,
  .uint 4 1 5 false,
  .uint 5 1 3 false,
  .nextExist false 8 4 1 false,
  .uint 12 1 5 false,
  .uint 13 1 3 false,
  .nextExist false 16 4 1 false,
  .uint 20 1 5 false,
  .uint 21 1 3 false,
  .nextExist false 24 4 1 false,
  .uint 28 1 5 false,
  .uint 29 1 3 false,
  .nextExist false 32 4 1 false,
  .uint 36 1 5 false,
  .uint 37 1 3 false,
  .nextExist false 40 4 1 false,
  .uint 44 1 5 false,
  .uint 45 1 3 false,
  .nextExist false 48 4 1 false,
  .uint 52 1 5 false,
  .uint 53 1 3 false]

/-- `BEP_MeasurementReport_type2_t` (`csn1_ts_44_060.c:556-560`). -/
def t_BEP_MeasurementReport_type2 : List Csn := [
  .nextExist false 0 4 1 false,
  .uint 4 1 2 false,
  .uint 5 1 4 false]

/-- `InterferenceMeasurementReport_type2_t` (`csn1_ts_44_060.c:563-566`). -/
def t_InterferenceMeasurementReport_type2 : List Csn := [
  .nextExist false 0 4 1 false,
  .uint 4 1 4 false]

/-- `EGPRS_TimeslotLinkQualityMeasurements_type2_t` (`csn1_ts_44_060.c:568-574`). -/
def t_EGPRS_TimeslotLinkQualityMeasurements_type2 : List Csn := [
  .nextExist false 0 4 1 false,
  .tarr 4 64 8 8 t_BEP_MeasurementReport_type2,
  .nextExist false 68 4 1 false,
  .tarr 72 64 8 8 t_InterferenceMeasurementReport_type2]

/-- `PRR_AdditionsR12_t` (`csn1_ts_44_060.c:577-582`). -/
def t_PRR_AdditionsR12 : List Csn := [
  .nextExist false 0 4 1 false,
  .uint 4 1 3 false]

/-- `PRR_AdditionsR10_t` (`csn1_ts_44_060.c:585-591`). -/
def t_PRR_AdditionsR10 : List Csn := [
  .uint 0 1 1 false,
  .nextExist false 4 4 1 true,
  .typ 8 false t_PRR_AdditionsR12]

/-- `PRR_AdditionsR7_t` (`csn1_ts_44_060.c:594-606`). -/
def t_PRR_AdditionsR7 : List Csn := [
  .uint 0 1 1 false,
  .nextExist false 4 4 1 false,
  .typ 8 false t_EGPRS_BEP_LinkQualityMeasurements_type2,
  .nextExist false 64 4 1 false,
  .typ 68 false t_EGPRS_TimeslotLinkQualityMeasurements_type2,
  .nextExist false 204 4 1 true,
  .typ 208 false t_PRR_AdditionsR10]

/-- `PRR_AdditionsR6_t` (`csn1_ts_44_060.c:609-616`). -/
def t_PRR_AdditionsR6 : List Csn := [
  .nextExist false 0 4 1 false,
  .typ 4 false t_Ext_Channel_Request_desc,
  .nextExist false 20 1 1 true,
  .typ 24 false t_PRR_AdditionsR7]

/-- `PRR_AdditionsR5_t` (`csn1_ts_44_060.c:619-628`). -/
def t_PRR_AdditionsR5 : List Csn := [
  .nextExist false 0 1 1 false,
  .typ 4 false t_IU_Mode_Channel_Request_Desk_RNTI,
  .nextExist false 28 1 1 false,
  .uint 29 1 7 false,
  .nextExist false 30 1 1 true,
  .typ 32 false t_PRR_AdditionsR6]

/-- `PRR_AdditionsR99_t` (`csn1_ts_44_060.c:631-647`). -/
def t_PRR_AdditionsR99 : List Csn := [
  .nextExist false 0 4 1 false,
  .typ 4 false t_EGPRS_BEP_LinkQualityMeasurements,
  .nextExist false 20 4 1 false,
  .typ 24 false t_EGPRS_TimeslotLinkQualityMeasurements,
  .nextExist false 160 4 1 false,
  .uint 164 1 7 false,
  .uint 165 1 1 false,
  .uint 166 1 1 false,
  .nextExist false 167 1 1 true,
  .typ 168 false t_PRR_AdditionsR5]

/-- `Packet_Resource_Request_t` (`csn1_ts_44_060.c:650-681`). -/
def t_Packet_Resource_Request : List Csn := [
  .uint 1 1 2 false,
  .uint 2 1 5 false,
  .uint 3 1 1 false,
  .uint 0 1 6 false,
  .nextExist false 4 1 1 false,
  .uint 5 1 2 false,
  .typ 8 false t_PacketResourceRequestID,
  .nextExist false 16 1 1 false,
  .typ 17 false t_MS_Radio_Access_capability2,
  .typ 778 false t_Channel_Request_Description,
  .nextExist false 784 1 1 false,
  .uint 785 1 2 false,
  .uint 786 1 6 false,
  .nextExist false 787 1 1 false,
  .uint 788 1 6 false,
  .tarr 792 64 8 8 t_InterferenceMeasurementReport,
  .nextExist false 856 1 1 true,
  .typ 860 false t_PRR_AdditionsR99,
  .padding]

/-- `Packet_Mobile_TBF_Status_t` (`csn1_ts_44_060.c:685-699`). -/
def t_Packet_Mobile_TBF_Status : List Csn := [
  .uint 1 1 2 false,
  .uint 2 1 5 false,
  .uint 3 1 1 false,
  .uint 0 1 6 false,
  .typ 4 false t_Global_TFI,
  .uint 6 1 3 false,
  .nextExist false 7 1 1 false,
  .uint 8 1 6 false,
  .padding]

/-- `PSI_Message_t` (`csn1_ts_44_060.c:703-709`). -/
def t_PSI_Message : List Csn := [
  .uint 0 1 6 false,
  .uint 1 1 2 false,
  .nextExist false 2 1 2 false,
  .fixed 4 0,
  .fixed 1 0]

/-- `PSI_Message_List_t` (`csn1_ts_44_060.c:712-716`). -/
def t_PSI_Message_List : List Csn := [
  .recTArr 1 30 3 10 0 t_PSI_Message,
  .fixed 1 0,
  .uint 31 1 1 false]

/-- `Unknown_PSI_Message_List_t` (`csn1_ts_44_060.c:719-722`). -/
def t_Unknown_PSI_Message_List : List Csn := [
  .fixed 1 0,
  .uint 0 1 1 false]

/-- `Packet_PSI_Status_t` (`csn1_ts_44_060.c:725-738`). -/
def t_Packet_PSI_Status : List Csn := [
  .uint 1 1 2 false,
  .uint 2 1 5 false,
  .uint 3 1 1 false,
  .uint 0 1 6 false,
  .typ 4 false t_Global_TFI,
  .uint 6 1 3 false,
  .typ 7 false t_PSI_Message_List,
  .typ 39 false t_Unknown_PSI_Message_List,
  .padding]

/-- `EGPRS_ChannelQualityReport_t` (`csn1_ts_44_060.c:806-810`). -/
def t_EGPRS_ChannelQualityReport : List Csn := [
  .typ 0 false t_EGPRS_BEP_LinkQualityMeasurements,
  .uint 16 1 6 false,
  .typ 20 false t_EGPRS_TimeslotLinkQualityMeasurements]

/-- `Extension_Bits_t` (`csn1_ts_44_060.c:255-258`). -/
def t_Extension_Bits : List Csn := [
  .uintOfs 0 1 6 1,
  .leftBmp false 1 8 0 0]

/-- `EGPRS_AckNack_Desc_t` (`csn1_ts_44_060.c:169-181`). -/
def t_EGPRS_AckNack_Desc : List Csn := [
  .uint 0 1 1 false,
  .uint 1 1 1 false,
  .uint 2 1 1 false,
  .uint 4 2 11 false,
  .nextExist false 8 4 3 false,
  .uint 12 1 7 false,
  .uint 13 1 1 false,
  .leftBmp false 14 16 12 0,
  .leftBmp true 32 42 30 0]

/-- `EGPRS_AckNack_w_len_t` (`csn1_ts_44_060.c:198-200`). -/
def t_EGPRS_AckNack_w_len : List Csn := [
  .serialize 0 8 t_EGPRS_AckNack_Desc]

/-- `EGPRS_AckNack_t` (`csn1_ts_44_060.c:203-207`). -/
def t_EGPRS_AckNack : List Csn := [
  .union false 0 1 2,
  .typ 4 false t_EGPRS_AckNack_Desc,
  .typ 4 false t_EGPRS_AckNack_w_len]

/-- `EGPRS_PD_AckNack_t` (`csn1_ts_44_060.c:813-839`). -/
def t_EGPRS_PD_AckNack : List Csn := [
  .uint 1 1 2 false,
  .uint 2 1 5 false,
  .bit 3 1 false,
  .uint 0 1 6 false,
  .uint 4 1 5 false,
  .uint 5 1 1 false,
  .nextExist false 8 4 1 false,
  .typ 12 false t_EGPRS_ChannelQualityReport,
  .nextExist false 168 4 1 false,
  .typ 172 false t_Channel_Request_Description,
  .nextExist false 180 4 1 false,
  .uint 184 1 7 false,
  .nextExist false 188 4 1 false,
  .typ 192 false t_Extension_Bits,
  .typ 204 false t_EGPRS_AckNack,
  .padding]

/-- `Packet_Pause_t` (`csn1_ts_44_060.c:3893-3898`). -/
def t_Packet_Pause : List Csn := [
  .uint 0 1 2 false,
  .uint 4 4 32 false,
  .bitmap 8 6 48,
  .padding]

/-- `RepeatedInvalid_BSIC_Info_t` (`csn1_ts_44_060.c:3144-3148`). -/
def t_RepeatedInvalid_BSIC_Info : List Csn := [
  .uint 0 1 5 false,
  .uint 1 1 6 false,
  .uint 2 1 6 false]

/-- `REPORTING_QUANTITY_Instance_t` (`csn1_ts_44_060.c:3151-3154`). -/
def t_REPORTING_QUANTITY_Instance : List Csn := [
  .nextExist false 0 1 1 false,
  .uint 1 1 6 false]

/-- `ENH_NC_Measurement_Report_t` (`csn1_ts_44_060.c:3165-3178`). -/
def t_ENH_NC_Measurement_Report : List Csn := [
  .uint 0 1 1 false,
  .union false 1 1 2,
  .typ 2 false t_BA_USED,
  .uint 2 1 2 false,
  .uint 4 1 1 false,
  .uint 5 1 1 false,
  .uint 6 1 1 false,
  .nextExist false 7 1 1 false,
  .typ 8 false t_Serving_Cell_Data,
  .recTArr 10 48 3 16 9 t_RepeatedInvalid_BSIC_Info,
  .nextExist false 58 1 1 false,
  .vtarr false 60 192 2 59 t_REPORTING_QUANTITY_Instance]

/-- `Bitmap_Report_Quantity_t` (`csn1_ts_44_060.c:3328-3331`). -/
def t_Bitmap_Report_Quantity : List Csn := [
  .nextExist false 0 4 1 false,
  .uint 4 1 6 false]

/-- `PEMR_AdditionsR9_t` (`csn1_ts_44_060.c:3320-3325`). -/
def t_PEMR_AdditionsR9 : List Csn := [
  .nextExist false 0 1 1 false,
  .typ 4 false t_UTRAN_CSG_Target_Cell,
  .nextExist false 16 1 1 false,
  .typ 20 false t_EUTRAN_CSG_Target_Cell]

/-- `PEMR_AdditionsR8_t` (`csn1_ts_44_060.c:3334-3341`). -/
def t_PEMR_AdditionsR8 : List Csn := [
  .uintOfs 0 1 7 1,
  .vtarr false 4 1024 8 0 t_Bitmap_Report_Quantity,
  .nextExist false 1028 4 1 false,
  .typ 1032 false t_EUTRAN_Measurement_Report,
  .nextExist false 1060 4 1 true,
  .typ 1064 false t_PEMR_AdditionsR9]

/-- `PEMR_AdditionsR5_t` (`csn1_ts_44_060.c:3344-3349`). -/
def t_PEMR_AdditionsR5 : List Csn := [
  .nextExist false 0 4 1 false,
  .uint 4 1 4 false,
  .nextExist false 8 4 1 true,
  .typ 12 false t_PEMR_AdditionsR8]

/-- `Packet_Enh_Measurement_Report_t` (`csn1_ts_44_060.c:3353-3369`). -/
def t_Packet_Enh_Measurement_Report : List Csn := [
  .uint 1 1 2 false,
  .uint 2 1 5 false,
  .uint 3 1 1 false,
  .uint 0 1 6 false,
  .uint 4 4 32 false,
  .typ 8 false t_ENH_NC_Measurement_Report,
  .nextExist false 260 4 1 true,
  .typ 264 false t_PEMR_AdditionsR5,
  .padding]

/-- Selectors of `AdditionalMsRadAccessCapID` (`csn1_ts_44_060.c:3860-3864`). -/
def s_AdditionalMsRadAccessCapID : List (Nat × Nat) := [(1, 0), (1, 1)]

/-- Alternatives of `AdditionalMsRadAccessCapID`. -/
def c_AdditionalMsRadAccessCapID : List Csn := [
  .typ 4 false t_Global_TFI,
  .uint 4 4 32 false]

/-- `AdditionalMsRadAccessCapID_t` (`csn1_ts_44_060.c:3867-3869`). -/
def t_AdditionalMsRadAccessCapID : List Csn := [
  .choice 0 1 s_AdditionalMsRadAccessCapID c_AdditionalMsRadAccessCapID]

/-- `Additional_MS_Rad_Access_Cap_t` (`csn1_ts_44_060.c:3873-3884`). -/
def t_Additional_MS_Rad_Access_Cap : List Csn := [
  .uint 1 1 2 false,
  .uint 2 1 5 false,
  .uint 3 1 1 false,
  .uint 0 1 6 false,
  .typ 4 false t_AdditionalMsRadAccessCapID,
  .typ 12 false t_MS_Radio_Access_capability2,
  .padding]

/-- `Target_Cell_GSM_Notif_t` (`csn1_ts_44_060.c:3417-3420`). -/
def t_Target_Cell_GSM_Notif : List Csn := [
  .uint 0 2 10 false,
  .uint 2 1 6 false]

/-- `FDD_Target_Cell_Notif_t` (`csn1_ts_44_060.c:3423-3428`). -/
def t_FDD_Target_Cell_Notif : List Csn := [
  .uint 0 2 14 false,
  .nextExist false 2 1 1 false,
  .uint 3 1 3 false,
  .uint 4 2 9 false]

/-- `TDD_Target_Cell_Notif_t` (`csn1_ts_44_060.c:3431-3437`). -/
def t_TDD_Target_Cell_Notif : List Csn := [
  .uint 0 2 14 false,
  .nextExist false 2 1 1 false,
  .uint 3 1 3 false,
  .uint 4 1 7 false,
  .uint 5 1 1 false]

/-- `Target_Cell_3G_Notif_t` (`csn1_ts_44_060.c:3440-3446`). -/
def t_Target_Cell_3G_Notif : List Csn := [
  .nextExist false 0 1 1 false,
  .typ 2 false t_FDD_Target_Cell_Notif,
  .nextExist false 8 1 1 false,
  .typ 10 false t_TDD_Target_Cell_Notif,
  .uint 16 1 6 false]

/-- `Target_EUTRAN_Cell_Notif_t` (`csn1_ts_44_060.c:3449-3455`). -/
def t_Target_EUTRAN_Cell_Notif : List Csn := [
  .uint 0 2 16 false,
  .nextExist false 2 1 1 false,
  .uint 3 1 3 false,
  .uint 4 2 9 false,
  .uint 6 1 6 false]

/-- `Eutran_Ccn_Measurement_Report_Cell_t` (`csn1_ts_44_060.c:3458-3462`). -/
def t_Eutran_Ccn_Measurement_Report_Cell : List Csn := [
  .uint 0 1 3 false,
  .uint 2 2 9 false,
  .uint 4 1 6 false]

/-- `Eutran_Ccn_Measurement_Report_t` (`csn1_ts_44_060.c:3466-3470`). -/
def t_Eutran_Ccn_Measurement_Report : List Csn := [
  .uint 0 4 1 false,
  .uintOfs 4 1 2 1,
  .vtarr false 6 24 6 4 t_Eutran_Ccn_Measurement_Report_Cell]

/-- `Target_Cell_4G_Notif_t` (`csn1_ts_44_060.c:3473-3483`). -/
def t_Target_Cell_4G_Notif : List Csn := [
  .nextExist false 0 1 2 false,
  .uint 2 2 10 false,
  .uint 4 1 6 false,
  .nextExist false 5 1 1 false,
  .typ 6 false t_Target_Cell_3G_Notif,
  .nextExist false 24 1 1 false,
  .typ 26 false t_Target_EUTRAN_Cell_Notif,
  .nextExist false 34 1 1 false,
  .typ 36 false t_Eutran_Ccn_Measurement_Report]

/-- `Target_Cell_CSG_Notif_t` (`csn1_ts_44_060.c:3486-3493`). -/
def t_Target_Cell_CSG_Notif : List Csn := [
  .fixed 1 0,
  .union false 0 1 2,
  .typ 4 false t_UTRAN_CSG_Measurement_Report,
  .typ 4 false t_EUTRAN_CSG_Measurement_Report,
  .nextExist false 32 1 1 false,
  .typ 36 false t_Eutran_Ccn_Measurement_Report]

/-- `Target_Other_RAT_2_Notif_t` (`csn1_ts_44_060.c:3496-3501`). -/
def t_Target_Other_RAT_2_Notif : List Csn := [
  .union false 0 1 2,
  .typ 4 false t_Target_Cell_4G_Notif,
  .typ 4 false t_Target_Cell_CSG_Notif]

/-- `Target_Other_RAT_Notif_t` (`csn1_ts_44_060.c:3504-3509`). -/
def t_Target_Other_RAT_Notif : List Csn := [
  .union false 0 1 2,
  .typ 4 false t_Target_Cell_3G_Notif,
  .typ 4 false t_Target_Other_RAT_2_Notif]

/-- `Target_Cell_t` (`csn1_ts_44_060.c:3512-3517`). -/
def t_Target_Cell : List Csn := [
  .union false 0 1 2,
  .typ 4 false t_Target_Cell_GSM_Notif,
  .typ 4 false t_Target_Other_RAT_Notif]

/-- `CCN_Measurement_Report_t` (`csn1_ts_44_060.c:3409-3414`). -/
def t_CCN_Measurement_Report : List Csn := [
  .uint 0 1 6 false,
  .fixed 1 0,
  .uint 1 1 3 false,
  .vtarr false 2 24 4 1 t_NC_Measurements]

/-- `PCCN_AdditionsR6_t` (`csn1_ts_44_060.c:3520-3526`). -/
def t_PCCN_AdditionsR6 : List Csn := [
  .nextExist false 0 1 1 false,
  .uint 1 1 1 false,
  .uintOfs 2 1 3 1,
  .vtarr true 3 12 2 2 t_Measurements_3G]

/-- `Packet_Cell_Change_Notification_t` (`csn1_ts_44_060.c:3530-3553`). -/
def t_Packet_Cell_Change_Notification : List Csn := [
  .uint 1 1 2 false,
  .uint 2 1 5 false,
  .uint 3 1 1 false,
  .uint 0 1 6 false,
  .typ 4 false t_Global_TFI,
  .typ 8 false t_Target_Cell,
  .union false 88 1 2,
  .uint 89 1 1 false,
  .uint 89 1 2 false,
  .uint 90 1 1 false,
  .uint 91 1 1 false,
  .typ 92 false t_CCN_Measurement_Report,
  .nextExist false 120 4 1 true,
  .typ 124 false t_PCCN_AdditionsR6,
  .padding]

/-- `SI_Message_t` (`csn1_ts_44_060.c:743-746`). -/
def t_SI_Message : List Csn := [
  .uint 0 1 8 false,
  .uint 1 1 2 false]

/-- `SI_Message_List_t` (`csn1_ts_44_060.c:749-753`). -/
def t_SI_Message_List : List Csn := [
  .recTArr 1 60 6 10 0 t_SI_Message,
  .fixed 1 0,
  .uint 61 1 1 false]

/-- `Unknown_SI_Message_List_t` (`csn1_ts_44_060.c:756-759`). -/
def t_Unknown_SI_Message_List : List Csn := [
  .fixed 1 0,
  .uint 0 1 1 false]

/-- `Packet_SI_Status_t` (`csn1_ts_44_060.c:762-775`). -/
def t_Packet_SI_Status : List Csn := [
  .uint 1 1 2 false,
  .uint 2 1 5 false,
  .uint 3 1 1 false,
  .uint 0 1 6 false,
  .typ 4 false t_Global_TFI,
  .uint 6 1 3 false,
  .typ 7 false t_SI_Message_List,
  .typ 69 false t_Unknown_SI_Message_List,
  .padding]

/-- `Packet_Request_Reference_t` (`csn1_ts_44_060.c:1097-1100`). -/
def t_Packet_Request_Reference : List Csn := [
  .uint 0 2 11 false,
  .uintArr 2 2 8 2]

/-- Selectors of `RejectID` (`csn1_ts_44_060.c:1969-1974`). -/
def s_RejectID : List (Nat × Nat) := [(1, 0), (2, 2), (2, 3)]

/-- Alternatives of `RejectID`. -/
def c_RejectID : List Csn := [
  .uint 4 4 32 false,
  .typ 4 false t_Packet_Request_Reference,
  .typ 4 false t_Global_TFI]

/-- `RejectID_t` (`csn1_ts_44_060.c:1977-1979`). -/
def t_RejectID : List Csn := [
  .choice 0 1 s_RejectID c_RejectID]

/-- `Reject_t` (`csn1_ts_44_060.c:1982-1988`). -/
def t_Reject : List Csn := [
  .typ 0 false t_RejectID,
  .nextExist false 8 1 2 false,
  .uint 9 1 8 false,
  .uint 10 1 1 false]

/-- `Packet_Access_Reject_t` (`csn1_ts_44_060.c:1991-1997`). -/
def t_Packet_Access_Reject : List Csn := [
  .uint 0 1 6 false,
  .uint 1 1 2 false,
  .recTArr1 4 60 12 5 3 t_Reject,
  .padding]

/-- Selectors of `PacketCellChangeOrderID` (`csn1_ts_44_060.c:2001-2005`). -/
def s_PacketCellChangeOrderID : List (Nat × Nat) := [(1, 0), (2, 2)]

/-- Alternatives of `PacketCellChangeOrderID`. -/
def c_PacketCellChangeOrderID : List Csn := [
  .typ 4 false t_Global_TFI,
  .uint 4 4 32 false]

/-- `PacketCellChangeOrderID_t` (`csn1_ts_44_060.c:2009-2011`). -/
def t_PacketCellChangeOrderID : List Csn := [
  .choice 0 1 s_PacketCellChangeOrderID c_PacketCellChangeOrderID]

/-- `Removed_Freq_Index_t` (`csn1_ts_44_060.c:2060-2062`). -/
def t_Removed_Freq_Index : List Csn := [
  .uint 0 1 6 false]

/-- `HCS_t` (`csn1_ts_44_060.c:1865-1868`). -/
def t_HCS : List Csn := [
  .uint 0 1 3 false,
  .uint 1 1 5 false]

/-- `Location_Repeat_t` (`csn1_ts_44_060.c:1871-1874`). -/
def t_Location_Repeat : List Csn := [
  .uint 0 1 2 false,
  .uint 1 1 4 false]

/-- `SI13_PBCCH_Location_t` (`csn1_ts_44_060.c:1877-1881`). -/
def t_SI13_PBCCH_Location : List Csn := [
  .union false 0 1 2,
  .uint 1 1 1 false,
  .typ 1 false t_Location_Repeat]

/-- `Cell_Selection_2_t` (`csn1_ts_44_060.c:1940-1956`). -/
def t_Cell_Selection_2 : List Csn := [
  .uint 0 1 1 false,
  .uint 1 1 1 false,
  .uint 2 1 1 false,
  .nextExist false 3 1 2 false,
  .uint 4 1 6 false,
  .uint 5 1 5 false,
  .nextExist false 6 1 2 false,
  .uint 7 1 3 false,
  .uint 8 1 5 false,
  .nextExist false 9 1 1 false,
  .uint 10 1 5 false,
  .nextExist false 11 1 1 false,
  .typ 12 false t_HCS,
  .nextExist false 14 1 1 false,
  .typ 15 false t_SI13_PBCCH_Location]

/-- `CellSelectionParamsWithFreqDiff_t` (`csn1_ts_44_060.c:2021-2027`). -/
def t_CellSelectionParamsWithFreqDiff : List Csn := [
  .varBmp 1 1 0 0,
  .uint 2 1 6 false,
  .nextExist false 4 4 1 false,
  .typ 8 false t_Cell_Selection_2]

/-- `Add_Frequency_list_t` (`csn1_ts_44_060.c:2045-2058`). -/
def t_Add_Frequency_list : List Csn := [
  .uint 0 2 10 false,
  .uint 2 1 6 false,
  .nextExist false 3 1 1 false,
  .typ 4 false t_Cell_Selection_2,
  .uint 22 1 5 false,
  .uintOfs 23 1 3 1,
  .cbCopy 23 24 28 920,
  .vtarr false 24 896 28 22 t_CellSelectionParamsWithFreqDiff]

/-- `NC_Frequency_list_t` (`csn1_ts_44_060.c:2065-2070`). -/
def t_NC_Frequency_list : List Csn := [
  .nextExist false 0 1 2 false,
  .uintOfs 1 1 5 1,
  .vtarr false 2 32 1 1 t_Removed_Freq_Index,
  .recTArr 36 29440 920 32 34 t_Add_Frequency_list]

/-- `NC_Measurement_Parameters_with_Frequency_List_t` (`csn1_ts_44_060.c:2083-2093`). -/
def t_NC_Measurement_Parameters_with_Frequency_List : List Csn := [
  .uint 0 1 2 false,
  .nextExist false 1 1 3 false,
  .uint 2 1 3 false,
  .uint 3 1 3 false,
  .uint 4 1 3 false,
  .nextExist false 5 1 1 false,
  .typ 8 false t_NC_Frequency_list]

/-- `LSA_ID_Info_Element_t` (`csn1_ts_44_060.c:3033-3037`). -/
def t_LSA_ID_Info_Element : List Csn := [
  .union false 0 1 2,
  .uint 1 1 24 false,
  .uint 1 1 10 false]

/-- `LSA_ID_Info_t` (`csn1_ts_44_060.c:3040-3042`). -/
def t_LSA_ID_Info : List Csn := [
  .recTArr 1 32 2 16 0 t_LSA_ID_Info_Element]

/-- `LSA_Parameters_t` (`csn1_ts_44_060.c:3045-3048`). -/
def t_LSA_Parameters : List Csn := [
  .uint 0 1 5 false,
  .vtarr false 1 1056 33 0 t_LSA_ID_Info]

/-- `BA_IND_t` (`csn1_ts_44_060.c:2097-2100`). -/
def t_BA_IND : List Csn := [
  .uint 0 1 1 false,
  .uint 1 1 1 false]

/-- `UTRAN_FDD_NeighbourCells_t` (`csn1_ts_44_060.c:2316-2322`). -/
def t_UTRAN_FDD_NeighbourCells : List Csn := [
  .uint 0 1 1 false,
  .uint 2 2 14 false,
  .uint 4 1 1 false,
  .uint 5 1 5 false,
  .varBmp 7 16 6 0]

/-- `UTRAN_FDD_Description_t` (`csn1_ts_44_060.c:2325-2329`). -/
def t_UTRAN_FDD_Description : List Csn := [
  .nextExist false 0 4 1 false,
  .uint 4 1 3 false,
  .recTArr 6 192 24 8 5 t_UTRAN_FDD_NeighbourCells]

/-- `UTRAN_TDD_NeighbourCells_t` (`csn1_ts_44_060.c:2419-2426`). -/
def t_UTRAN_TDD_NeighbourCells : List Csn := [
  .uint 0 1 1 false,
  .uint 2 2 14 false,
  .uint 4 1 1 false,
  .uint 5 1 5 false,
  .cbTddMap 5 6,
  .cbTddCells 6]

/-- `UTRAN_TDD_Description_t` (`csn1_ts_44_060.c:2429-2433`). -/
def t_UTRAN_TDD_Description : List Csn := [
  .nextExist false 0 4 1 false,
  .uint 4 1 3 false,
  .recTArr 6 192 24 8 5 t_UTRAN_TDD_NeighbourCells]

/-- `N2_t` (`csn1_ts_44_060.c:2204-2208`). -/
def t_N2 : List Csn := [
  .uint 0 1 7 false,
  .uint 1 1 3 false,
  .varBmp 2 1 1 0]

/-- `N1_t` (`csn1_ts_44_060.c:2211-2214`). -/
def t_N1 : List Csn := [
  .uintOfs 0 1 5 1,
  .vtarr false 1 96 3 0 t_N2]

/-- `Removed3GCellDescription_t` (`csn1_ts_44_060.c:2217-2220`). -/
def t_Removed3GCellDescription : List Csn := [
  .uintOfs 0 1 2 1,
  .vtarr false 1 388 97 0 t_N1]

/-- `NeighbourCellDescription3G_PCCO_t` (`csn1_ts_44_060.c:2452-2463`). -/
def t_NeighbourCellDescription3G_PCCO : List Csn := [
  .nextExist false 0 1 1 false,
  .uint 1 1 7 false,
  .nextExist false 2 1 1 false,
  .uint 3 1 7 false,
  .nextExist false 4 1 1 false,
  .typ 8 false t_UTRAN_FDD_Description,
  .nextExist false 208 1 1 false,
  .typ 212 false t_UTRAN_TDD_Description,
  .nextExist false 412 1 1 false,
  .typ 413 false t_Removed3GCellDescription]

/-- `GPRSReportPriority_t` (`csn1_ts_44_060.c:2103-2106`). -/
def t_GPRSReportPriority : List Csn := [
  .uint 0 1 7 false,
  .varBmp 1 16 0 0]

/-- `OffsetThreshold_t` (`csn1_ts_44_060.c:2109-2112`). -/
def t_OffsetThreshold : List Csn := [
  .uint 0 1 3 false,
  .uint 1 1 3 false]

/-- `GPRSMeasurementParams_PMO_PCCO_t` (`csn1_ts_44_060.c:2115-2138`). -/
def t_GPRSMeasurementParams_PMO_PCCO : List Csn := [
  .nextExist false 0 1 1 false,
  .uint 1 1 2 false,
  .nextExist false 2 1 1 false,
  .uint 3 1 2 false,
  .uint 5 1 2 false,
  .nextExist false 6 1 1 false,
  .typ 7 false t_OffsetThreshold,
  .nextExist false 9 1 1 false,
  .typ 10 false t_OffsetThreshold,
  .nextExist false 12 1 1 false,
  .typ 13 false t_OffsetThreshold,
  .nextExist false 15 1 1 false,
  .typ 16 false t_OffsetThreshold,
  .nextExist false 18 1 1 false,
  .typ 19 false t_OffsetThreshold]

/-- `MultiratParams3G_t` (`csn1_ts_44_060.c:2164-2170`). -/
def t_MultiratParams3G : List Csn := [
  .nextExist false 0 4 1 false,
  .uint 4 1 2 false,
  .nextExist false 8 4 1 false,
  .typ 12 false t_OffsetThreshold]

/-- `ENH_GPRSMeasurementParams3G_PCCO_t` (`csn1_ts_44_060.c:2189-2201`). -/
def t_ENH_GPRSMeasurementParams3G_PCCO : List Csn := [
  .uint 0 1 4 false,
  .uint 1 1 1 false,
  .nextExist false 4 4 2 false,
  .uint 8 1 1 false,
  .uint 9 1 2 false,
  .nextExist false 12 4 1 false,
  .typ 16 false t_OffsetThreshold,
  .typ 20 false t_MultiratParams3G]

/-- `ENH_Measurement_Parameters_PCCO_t` (`csn1_ts_44_060.c:2490-2511`). -/
def t_ENH_Measurement_Parameters_PCCO : List Csn := [
  .union false 0 1 2,
  .typ 1 false t_BA_IND,
  .uint 1 1 2 false,
  .uint 3 1 1 false,
  .uint 4 1 1 false,
  .uint 5 1 1 false,
  .uint 6 1 1 false,
  .nextExist false 8 4 1 false,
  .typ 12 false t_NeighbourCellDescription3G_PCCO,
  .nextExist false 816 4 1 false,
  .typ 820 false t_GPRSReportPriority,
  .nextExist false 840 4 1 false,
  .typ 844 false t_GPRSMeasurementParams_PMO_PCCO,
  .nextExist false 868 4 1 false,
  .typ 872 false t_ENH_GPRSMeasurementParams3G_PCCO]

/-- `CCN_Support_Description_t` (`csn1_ts_44_060.c:2514-2517`). -/
def t_CCN_Support_Description : List Csn := [
  .uint 0 1 7 false,
  .varBmp 1 16 0 0]

/-- `lu_ModeCellSelectionParameters_t` (`csn1_ts_44_060.c:2520-2524`). -/
def t_lu_ModeCellSelectionParameters : List Csn := [
  .uint 0 1 2 false,
  .nextExist false 1 1 1 false,
  .typ 2 false t_SI13_PBCCH_Location]

/-- `lu_ModeCellSelectionParams_t` (`csn1_ts_44_060.c:2527-2530`). -/
def t_lu_ModeCellSelectionParams : List Csn := [
  .nextExist false 0 1 1 false,
  .typ 1 false t_lu_ModeCellSelectionParameters]

/-- `lu_ModeNeighbourCellParams_t` (`csn1_ts_44_060.c:2533-2537`). -/
def t_lu_ModeNeighbourCellParams : List Csn := [
  .typ 0 false t_lu_ModeCellSelectionParams,
  .uint 6 1 5 false,
  .vtarr false 7 192 6 6 t_lu_ModeCellSelectionParams]

/-- `lu_ModeOnlyCellSelection_t` (`csn1_ts_44_060.c:2540-2560`). -/
def t_lu_ModeOnlyCellSelection : List Csn := [
  .uint 0 1 2 false,
  .uint 1 1 1 false,
  .nextExist false 2 1 2 false,
  .uint 3 1 6 false,
  .uint 4 1 5 false,
  .nextExist false 5 1 2 false,
  .uint 6 1 3 false,
  .uint 7 1 5 false,
  .nextExist false 8 1 1 false,
  .uint 9 1 5 false,
  .nextExist false 10 1 1 false,
  .typ 11 false t_HCS,
  .nextExist false 13 1 1 false,
  .typ 14 false t_SI13_PBCCH_Location]

/-- `lu_ModeOnlyCellSelectionParamsWithFreqDiff_t` (`csn1_ts_44_060.c:2563-2569`). -/
def t_lu_ModeOnlyCellSelectionParamsWithFreqDiff : List Csn := [
  .varBmp 1 1 0 0,
  .uint 2 1 6 false,
  .nextExist false 4 4 1 false,
  .typ 8 false t_lu_ModeOnlyCellSelection]

/-- `Add_lu_ModeOnlyFrequencyList_t` (`csn1_ts_44_060.c:2587-2600`). -/
def t_Add_lu_ModeOnlyFrequencyList : List Csn := [
  .uint 0 2 10 false,
  .uint 2 1 6 false,
  .nextExist false 3 1 1 false,
  .typ 4 false t_lu_ModeOnlyCellSelection,
  .uint 21 1 5 false,
  .uint 22 1 3 false,
  .cbCopy 22 24 28 920,
  .vtarr false 24 896 28 21 t_lu_ModeOnlyCellSelectionParamsWithFreqDiff]

/-- `NC_lu_ModeOnlyCapableCellList_t` (`csn1_ts_44_060.c:2603-2605`). -/
def t_NC_lu_ModeOnlyCapableCellList : List Csn := [
  .recTArr 4 29440 920 32 0 t_Add_lu_ModeOnlyFrequencyList]

/-- `GPRS_AdditionalMeasurementParams3G_t` (`csn1_ts_44_060.c:2608-2611`). -/
def t_GPRS_AdditionalMeasurementParams3G : List Csn := [
  .nextExist false 0 1 1 false,
  .uint 1 1 6 false]

/-- `PCCO_AdditionsR6_t` (`csn1_ts_44_060.c:2965-2967`). -/
def t_PCCO_AdditionsR6 : List Csn := [
  .uint 0 1 1 false]

/-- `PCCO_AdditionsR5_t` (`csn1_ts_44_060.c:2984-2995`). -/
def t_PCCO_AdditionsR5 : List Csn := [
  .nextExist false 0 1 1 false,
  .uint 1 1 4 false,
  .nextExist false 2 1 1 false,
  .recTArr 4 6368 199 32 3 t_lu_ModeNeighbourCellParams,
  .nextExist false 6372 1 1 false,
  .typ 6376 false t_NC_lu_ModeOnlyCapableCellList,
  .nextExist false 35820 1 1 false,
  .typ 35821 false t_GPRS_AdditionalMeasurementParams3G,
  .nextExist false 35823 1 1 true,
  .typ 35824 false t_PCCO_AdditionsR6]

/-- `PCCO_AdditionsR4_t` (`csn1_ts_44_060.c:3015-3023`). -/
def t_PCCO_AdditionsR4 : List Csn := [
  .uint 0 1 1 false,
  .nextExist false 1 1 1 false,
  .uint 2 1 2 false,
  .nextExist false 3 1 1 false,
  .typ 4 false t_CCN_Support_Description,
  .nextExist false 21 1 1 true,
  .typ 24 false t_PCCO_AdditionsR5]

/-- `PCCO_AdditionsR99_t` (`csn1_ts_44_060.c:3026-3030`). -/
def t_PCCO_AdditionsR99 : List Csn := [
  .typ 0 false t_ENH_Measurement_Parameters_PCCO,
  .nextExist false 908 1 1 true,
  .typ 912 false t_PCCO_AdditionsR4]

/-- `PCCO_AdditionsR98_t` (`csn1_ts_44_060.c:3060-3066`). -/
def t_PCCO_AdditionsR98 : List Csn := [
  .nextExist false 0 1 1 false,
  .typ 1 false t_LSA_Parameters,
  .nextExist false 1058 1 1 true,
  .typ 1060 false t_PCCO_AdditionsR99]

/-- `Target_Cell_GSM_t` (`csn1_ts_44_060.c:3069-3076`). -/
def t_Target_Cell_GSM : List Csn := [
  .uint 0 1 1 false,
  .uint 2 2 10 false,
  .uint 4 1 6 false,
  .typ 8 false t_NC_Measurement_Parameters_with_Frequency_List,
  .nextExist false 29492 1 1 true,
  .typ 29496 false t_PCCO_AdditionsR98]

/-- `Delete_All_Stored_Individual_Priorities_t` (`csn1_ts_44_060.c:2856-2858`). -/
def t_Delete_All_Stored_Individual_Priorities : List Csn := [
  .null 0]

/-- `Individual_UTRAN_Priority_FDD_t` (`csn1_ts_44_060.c:2861-2863`). -/
def t_Individual_UTRAN_Priority_FDD : List Csn := [
  .recArr 2 64 0 14]

/-- `Individual_UTRAN_Priority_TDD_t` (`csn1_ts_44_060.c:2866-2868`). -/
def t_Individual_UTRAN_Priority_TDD : List Csn := [
  .recArr 2 64 0 14]

/-- `Repeated_Individual_UTRAN_Priority_Parameters_t` (`csn1_ts_44_060.c:2871-2876`). -/
def t_Repeated_Individual_UTRAN_Priority_Parameters : List Csn := [
  .union false 0 1 2,
  .typ 2 false t_Individual_UTRAN_Priority_FDD,
  .typ 2 false t_Individual_UTRAN_Priority_TDD,
  .uint 68 1 3 false]

/-- `ThreeG_Individual_Priority_Parameters_Description_t` (`csn1_ts_44_060.c:2879-2883`). -/
def t_ThreeG_Individual_Priority_Parameters_Description : List Csn := [
  .nextExist false 0 1 1 false,
  .uint 1 1 3 false,
  .recTArr 4 2240 70 32 2 t_Repeated_Individual_UTRAN_Priority_Parameters]

/-- `Repeated_Individual_EUTRAN_Priority_Parameters_t` (`csn1_ts_44_060.c:2886-2889`). -/
def t_Repeated_Individual_EUTRAN_Priority_Parameters : List Csn := [
  .recArr 2 64 0 16,
  .uint 66 1 3 false]

/-- `EUTRAN_Individual_Priority_Parameters_Description_t` (`csn1_ts_44_060.c:2892-2896`). -/
def t_EUTRAN_Individual_Priority_Parameters_Description : List Csn := [
  .nextExist false 0 1 1 false,
  .uint 1 1 3 false,
  .recTArr 4 2176 68 32 2 t_Repeated_Individual_EUTRAN_Priority_Parameters]

/-- `Provide_Individual_Priorities_t` (`csn1_ts_44_060.c:2899-2907`). -/
def t_Provide_Individual_Priorities : List Csn := [
  .uint 0 1 3 false,
  .nextExist false 1 1 1 false,
  .typ 2 false t_ThreeG_Individual_Priority_Parameters_Description,
  .nextExist false 2246 1 1 false,
  .typ 2248 false t_EUTRAN_Individual_Priority_Parameters_Description,
  .nextExist false 4428 1 1 false,
  .uint 4429 1 3 false]

/-- `Individual_Priorities_t` (`csn1_ts_44_060.c:2910-2914`). -/
def t_Individual_Priorities : List Csn := [
  .union false 0 1 2,
  .typ 2 false t_Delete_All_Stored_Individual_Priorities,
  .typ 2 false t_Provide_Individual_Priorities]

/-- `Target_Cell_3G_AdditionsR8_t` (`csn1_ts_44_060.c:3079-3084`). -/
def t_Target_Cell_3G_AdditionsR8 : List Csn := [
  .nextExist false 0 1 1 false,
  .typ 2 false t_EUTRAN_Target_Cell,
  .nextExist false 8 1 1 false,
  .typ 10 false t_Individual_Priorities]

/-- `Target_Cell_3G_AdditionsR5_t` (`csn1_ts_44_060.c:3087-3092`). -/
def t_Target_Cell_3G_AdditionsR5 : List Csn := [
  .nextExist false 0 1 1 false,
  .uint 1 1 4 false,
  .nextExist false 2 1 1 true,
  .typ 4 false t_Target_Cell_3G_AdditionsR8]

/-- `Target_Cell_3G_t` (`csn1_ts_44_060.c:3095-3105`). -/
def t_Target_Cell_3G : List Csn := [
  .fixed 2 0,
  .uint 0 1 1 false,
  .nextExist false 1 1 1 false,
  .typ 2 false t_FDD_Target_Cell,
  .nextExist false 10 1 1 false,
  .typ 12 false t_TDD_Target_Cell,
  .nextExist false 22 1 1 true,
  .typ 24 false t_Target_Cell_3G_AdditionsR5]

/-- `Packet_Cell_Change_Order_t` (`csn1_ts_44_060.c:3108-3119`). -/
def t_Packet_Cell_Change_Order : List Csn := [
  .uint 0 1 6 false,
  .uint 1 1 2 false,
  .typ 4 false t_PacketCellChangeOrderID,
  .union false 12 1 2,
  .typ 16 false t_Target_Cell_GSM,
  .typ 16 false t_Target_Cell_3G,
  .padding]

/-- `Packet_Cell_Change_Continue_t` (`csn1_ts_44_060.c:3557-3569`). -/
def t_Packet_Cell_Change_Continue : List Csn := [
  .uint 0 1 6 false,
  .uint 1 1 2 false,
  .fixed 1 0,
  .typ 2 false t_Global_TFI,
  .nextExist false 4 1 3 false,
  .uint 6 2 10 false,
  .uint 8 1 6 false,
  .uint 9 1 2 false,
  .padding]

/-- Selectors of `PacketDownlinkID` (`csn1_ts_44_060.c:1413-1417`). -/
def s_PacketDownlinkID : List (Nat × Nat) := [(1, 0), (2, 2)]

/-- Alternatives of `PacketDownlinkID`. -/
def c_PacketDownlinkID : List Csn := [
  .typ 4 false t_Global_TFI,
  .uint 4 4 32 false]

/-- `PacketDownlinkID_t` (`csn1_ts_44_060.c:1420-1422`). -/
def t_PacketDownlinkID : List Csn := [
  .choice 0 1 s_PacketDownlinkID c_PacketDownlinkID]

/-- `Packet_Timing_Advance_t` (`csn1_ts_44_060.c:89-96`). -/
def t_Packet_Timing_Advance : List Csn := [
  .nextExist false 0 1 1 false,
  .uint 1 1 6 false,
  .nextExist false 2 1 2 false,
  .uint 3 1 4 false,
  .uint 4 1 3 false]

/-- `CHANGE_MARK_t` (`csn1_ts_44_060.c:1055-1060`). -/
def t_CHANGE_MARK : List Csn := [
  .uint 0 1 2 false,
  .nextExist false 1 1 1 false,
  .uint 2 1 2 false]

/-- `Indirect_encoding_t` (`csn1_ts_44_060.c:1063-1069`). -/
def t_Indirect_encoding : List Csn := [
  .uint 0 1 6 false,
  .uint 1 1 4 false,
  .nextExist false 2 1 1 false,
  .typ 3 false t_CHANGE_MARK]

/-- `MobileAllocation_t` (`csn1_ts_44_060.c:234-237`). -/
def t_MobileAllocation : List Csn := [
  .uintOfs 9 1 6 1,
  .varBmp 1 8 9 0]

/-- `ARFCN_index_list_t` (`csn1_ts_44_060.c:240-242`). -/
def t_ARFCN_index_list : List Csn := [
  .recArr 1 16 0 6]

/-- `GPRS_Mobile_Allocation_t` (`csn1_ts_44_060.c:245-251`). -/
def t_GPRS_Mobile_Allocation : List Csn := [
  .uint 0 1 6 false,
  .recArr 2 4 1 4,
  .union false 6 1 2,
  .typ 7 false t_MobileAllocation,
  .typ 7 false t_ARFCN_index_list]

/-- `Direct_encoding_1_t` (`csn1_ts_44_060.c:1072-1075`). -/
def t_Direct_encoding_1 : List Csn := [
  .uint 0 1 6 false,
  .typ 1 false t_GPRS_Mobile_Allocation]

/-- `Direct_encoding_2_t` (`csn1_ts_44_060.c:1078-1083`). -/
def t_Direct_encoding_2 : List Csn := [
  .uint 0 1 6 false,
  .uint 1 1 6 false,
  .uintOfs 2 1 4 3,
  .varArr 3 18 2 0]

/-- `Frequency_Parameters_t` (`csn1_ts_44_060.c:1086-1094`). -/
def t_Frequency_Parameters : List Csn := [
  .uint 0 1 3 false,
  .union false 1 1 4,
  .uint 2 2 10 false,
  .typ 2 false t_Indirect_encoding,
  .typ 2 false t_Direct_encoding_1,
  .typ 2 false t_Direct_encoding_2]

/-- `Power_Control_Parameters_t` (`csn1_ts_44_060.c:940-966`). -/
def t_Power_Control_Parameters : List Csn := [
  .uint 0 1 4 false,
  .nextExist false 1 1 1 false,
  .uint 2 1 5 false,
  .nextExist false 3 1 1 false,
  .uint 4 1 5 false,
  .nextExist false 5 1 1 false,
  .uint 6 1 5 false,
  .nextExist false 7 1 1 false,
  .uint 8 1 5 false,
  .nextExist false 9 1 1 false,
  .uint 10 1 5 false,
  .nextExist false 11 1 1 false,
  .uint 12 1 5 false,
  .nextExist false 13 1 1 false,
  .uint 14 1 5 false,
  .nextExist false 15 1 1 false,
  .uint 16 1 5 false]

/-- `StartingTime_t` (`csn1_ts_44_060.c:57-61`). -/
def t_StartingTime : List Csn := [
  .uint 0 1 5 false,
  .uint 1 1 6 false,
  .uint 2 1 5 false]

/-- `Starting_Frame_Number_t` (`csn1_ts_44_060.c:73-77`). -/
def t_Starting_Frame_Number : List Csn := [
  .union false 0 1 2,
  .typ 2 false t_StartingTime,
  .uint 2 2 13 false]

/-- `Measurement_Mapping_struct_t` (`csn1_ts_44_060.c:1406-1410`). -/
def t_Measurement_Mapping_struct : List Csn := [
  .typ 0 false t_Starting_Frame_Number,
  .uint 6 1 5 false,
  .uint 7 1 8 false]

/-- `COMPACT_ReducedMA_t` (`csn1_ts_44_060.c:1318-1324`). -/
def t_COMPACT_ReducedMA : List Csn := [
  .uint 0 1 7 false,
  .varBmp 1 16 0 0,
  .nextExist false 20 4 1 false,
  .uint 24 1 6 false]

/-- `PDA_AdditionsR99_t` (`csn1_ts_44_060.c:1425-1437`). -/
def t_PDA_AdditionsR99 : List Csn := [
  .nextExist false 0 4 4 false,
  .uint 4 1 5 false,
  .uint 5 1 2 false,
  .nextExist false 8 4 1 false,
  .uint 12 1 4 false,
  .nextExist false 16 4 1 false,
  .uint 20 1 2 false,
  .nextExist false 24 4 1 false,
  .typ 28 false t_COMPACT_ReducedMA]

/-- `Packet_Downlink_Assignment_t` (`csn1_ts_44_060.c:1440-1481`). -/
def t_Packet_Downlink_Assignment : List Csn := [
  .uint 0 1 6 false,
  .uint 1 1 2 false,
  .nextExist false 4 4 1 false,
  .uintArr 8 4 4 4,
  .typ 12 false t_PacketDownlinkID,
  .fixed 1 0,
  .uint 20 1 2 false,
  .uint 21 1 1 false,
  .uint 22 1 1 false,
  .uint 23 1 8 false,
  .typ 24 false t_Packet_Timing_Advance,
  .nextExist false 32 4 3 false,
  .uint 36 1 4 false,
  .uint 37 1 1 false,
  .uint 38 1 1 false,
  .nextExist false 40 4 1 false,
  .typ 44 false t_Frequency_Parameters,
  .nextExist false 72 4 1 false,
  .uint 76 1 5 false,
  .nextExist false 80 4 1 false,
  .typ 84 false t_Power_Control_Parameters,
  .nextExist false 104 4 1 false,
  .typ 108 false t_Starting_Frame_Number,
  .nextExist false 114 1 1 false,
  .typ 116 false t_Measurement_Mapping_struct,
  .nextExist false 124 4 1 true,
  .typ 128 false t_PDA_AdditionsR99,
  .padding]

/-- `CDMA2000_Description_t` (`csn1_ts_44_060.c:2223-2226`). -/
def t_CDMA2000_Description : List Csn := [
  .uint 0 1 1 false,
  .trap (-8)]

/-- `NeighbourCellDescription3G_PMO_t` (`csn1_ts_44_060.c:2436-2449`). -/
def t_NeighbourCellDescription3G_PMO : List Csn := [
  .nextExist false 0 1 1 false,
  .uint 1 1 7 false,
  .nextExist false 2 1 1 false,
  .uint 3 1 7 false,
  .nextExist false 4 1 1 false,
  .typ 8 false t_UTRAN_FDD_Description,
  .nextExist false 208 1 1 false,
  .typ 212 false t_UTRAN_TDD_Description,
  .nextExist false 412 1 1 false,
  .typ 413 false t_CDMA2000_Description,
  .nextExist false 414 1 1 false,
  .typ 415 false t_Removed3GCellDescription]

/-- `ENH_GPRSMeasurementParams3G_PMO_t` (`csn1_ts_44_060.c:2173-2186`). -/
def t_ENH_GPRSMeasurementParams3G_PMO : List Csn := [
  .uint 0 1 4 false,
  .uint 1 1 1 false,
  .nextExist false 4 4 2 false,
  .uint 8 1 1 false,
  .uint 9 1 2 false,
  .nextExist false 12 4 1 false,
  .typ 16 false t_OffsetThreshold,
  .typ 20 false t_MultiratParams3G,
  .typ 36 false t_MultiratParams3G]

/-- `ENH_Measurement_Parameters_PMO_t` (`csn1_ts_44_060.c:2466-2487`). -/
def t_ENH_Measurement_Parameters_PMO : List Csn := [
  .union false 0 1 2,
  .typ 1 false t_BA_IND,
  .uint 1 1 2 false,
  .uint 3 1 1 false,
  .uint 4 1 1 false,
  .uint 5 1 1 false,
  .uint 6 1 1 false,
  .nextExist false 8 4 1 false,
  .typ 12 false t_NeighbourCellDescription3G_PMO,
  .nextExist false 816 4 1 false,
  .typ 820 false t_GPRSReportPriority,
  .nextExist false 840 4 1 false,
  .typ 844 false t_GPRSMeasurementParams_PMO_PCCO,
  .nextExist false 868 4 1 false,
  .typ 872 false t_ENH_GPRSMeasurementParams3G_PMO]

/-- `ServingCellPriorityParametersDescription_t` (`csn1_ts_44_060.c:2614-2620`). -/
def t_ServingCellPriorityParametersDescription : List Csn := [
  .uint 0 1 3 false,
  .uint 1 1 4 false,
  .uint 2 1 4 false,
  .uint 3 1 2 false,
  .uint 4 1 2 false]

/-- `RepeatedUTRAN_PriorityParameters_t` (`csn1_ts_44_060.c:2623-2636`). -/
def t_RepeatedUTRAN_PriorityParameters : List Csn := [
  .recArr 1 18 0 5,
  .nextExist false 20 4 1 false,
  .uint 24 1 3 false,
  .uint 25 1 5 false,
  .nextExist false 28 4 1 false,
  .uint 32 1 5 false,
  .nextExist false 36 4 1 false,
  .uint 40 1 5 false]

/-- `PriorityParametersDescription3G_PMO_t` (`csn1_ts_44_060.c:2639-2647`). -/
def t_PriorityParametersDescription3G_PMO : List Csn := [
  .nextExist false 0 4 3 false,
  .uint 4 1 3 false,
  .uint 5 1 5 false,
  .uint 6 1 5 false,
  .recTArr 8 352 44 8 7 t_RepeatedUTRAN_PriorityParameters]

/-- `EUTRAN_REPORTING_THRESHOLD_OFFSET_t` (`csn1_ts_44_060.c:2650-2664`). -/
def t_EUTRAN_REPORTING_THRESHOLD_OFFSET : List Csn := [
  .nextExist false 0 4 5 false,
  .uint 4 1 3 false,
  .nextExist false 8 4 1 false,
  .uint 12 1 6 false,
  .nextExist false 16 4 1 false,
  .uint 20 1 3 false,
  .nextExist false 24 4 5 false,
  .uint 28 1 3 false,
  .nextExist false 32 4 1 false,
  .uint 36 1 6 false,
  .nextExist false 40 4 1 false,
  .uint 44 1 3 false]

/-- `GPRS_EUTRAN_MeasurementParametersDescription_t` (`csn1_ts_44_060.c:2667-2672`). -/
def t_GPRS_EUTRAN_MeasurementParametersDescription : List Csn := [
  .uint 0 1 4 false,
  .uint 1 1 1 false,
  .uint 2 1 2 false,
  .typ 4 false t_EUTRAN_REPORTING_THRESHOLD_OFFSET]

/-- `RepeatedEUTRAN_Cells_t` (`csn1_ts_44_060.c:2675-2679`). -/
def t_RepeatedEUTRAN_Cells : List Csn := [
  .uint 0 2 16 false,
  .nextExist false 4 4 1 false,
  .uint 8 1 3 false]

/-- `RepeatedEUTRAN_NeighbourCells_t` (`csn1_ts_44_060.c:2682-2695`). -/
def t_RepeatedEUTRAN_NeighbourCells : List Csn := [
  .recTArr 4 72 12 6 0 t_RepeatedEUTRAN_Cells,
  .nextExist false 76 4 1 false,
  .uint 80 1 3 false,
  .uint 81 1 5 false,
  .nextExist false 84 4 1 false,
  .uint 88 1 5 false,
  .nextExist false 92 4 1 false,
  .uint 96 1 5 false]

/-- `PCID_Pattern_t` (`csn1_ts_44_060.c:2698-2702`). -/
def t_PCID_Pattern : List Csn := [
  .uint 0 1 3 false,
  .varBmp 1 1 0 1,
  .uint 2 1 1 false]

/-- `PCID_Group_IE_t` (`csn1_ts_44_060.c:2705-2713`). -/
def t_PCID_Group_IE : List Csn := [
  .recArr 2 22 0 9,
  .nextExist false 24 4 1 false,
  .uint 28 1 6 false,
  .recTArr 30 57 3 19 29 t_PCID_Pattern]

/-- `EUTRAN_FREQUENCY_INDEX_t` (`csn1_ts_44_060.c:2716-2718`). -/
def t_EUTRAN_FREQUENCY_INDEX : List Csn := [
  .uint 0 1 3 false]

/-- `RepeatedEUTRAN_NotAllowedCells_t` (`csn1_ts_44_060.c:2721-2725`). -/
def t_RepeatedEUTRAN_NotAllowedCells : List Csn := [
  .typ 0 false t_PCID_Group_IE,
  .recTArr 89 28 1 28 88 t_EUTRAN_FREQUENCY_INDEX]

/-- `RepeatedEUTRAN_PCID_to_TA_mapping_t` (`csn1_ts_44_060.c:2728-2731`). -/
def t_RepeatedEUTRAN_PCID_to_TA_mapping : List Csn := [
  .recTArr 4 1232 88 14 0 t_PCID_Group_IE,
  .recTArr 1237 28 1 28 1236 t_EUTRAN_FREQUENCY_INDEX]

/-- `EUTRAN_ParametersDescription_PMO_t` (`csn1_ts_44_060.c:2734-2743`). -/
def t_EUTRAN_ParametersDescription_PMO : List Csn := [
  .uint 0 1 1 false,
  .nextExist false 4 4 1 false,
  .typ 8 false t_GPRS_EUTRAN_MeasurementParametersDescription,
  .recTArr 64 400 100 4 60 t_RepeatedEUTRAN_NeighbourCells,
  .recTArr 468 1680 120 14 464 t_RepeatedEUTRAN_NotAllowedCells,
  .recTArr 2152 24092 1268 19 2148 t_RepeatedEUTRAN_PCID_to_TA_mapping]

/-- `PriorityAndEUTRAN_ParametersDescription_PMO_t` (`csn1_ts_44_060.c:2845-2852`). -/
def t_PriorityAndEUTRAN_ParametersDescription_PMO : List Csn := [
  .nextExist false 0 4 1 false,
  .typ 4 false t_ServingCellPriorityParametersDescription,
  .nextExist false 12 4 1 false,
  .typ 16 false t_PriorityParametersDescription3G_PMO,
  .nextExist false 376 4 1 false,
  .typ 380 false t_EUTRAN_ParametersDescription_PMO]

/-- `PSC_Pattern_t` (`csn1_ts_44_060.c:2746-2750`). -/
def t_PSC_Pattern : List Csn := [
  .uint 0 1 3 false,
  .varBmp 1 1 0 1,
  .uint 4 4 1 false]

/-- `PSC_Group_t` (`csn1_ts_44_060.c:2753-2756`). -/
def t_PSC_Group : List Csn := [
  .recArr 2 64 0 9,
  .recTArr 68 256 8 32 66 t_PSC_Pattern]

/-- `ThreeG_CSG_Description_Body_t` (`csn1_ts_44_060.c:2759-2762`). -/
def t_ThreeG_CSG_Description_Body : List Csn := [
  .typ 0 false t_PSC_Group,
  .recArr 325 32 324 5]

/-- `ThreeG_CSG_Description_t` (`csn1_ts_44_060.c:2765-2767`). -/
def t_ThreeG_CSG_Description : List Csn := [
  .recTArr 4 11520 360 32 0 t_ThreeG_CSG_Description_Body]

/-- `EUTRAN_CSG_Description_Body_t` (`csn1_ts_44_060.c:2770-2773`). -/
def t_EUTRAN_CSG_Description_Body : List Csn := [
  .typ 0 false t_PSC_Group,
  .recArr 325 32 324 3]

/-- `EUTRAN_CSG_Description_t` (`csn1_ts_44_060.c:2776-2778`). -/
def t_EUTRAN_CSG_Description : List Csn := [
  .recTArr 4 11520 360 32 0 t_EUTRAN_CSG_Description_Body]

/-- `Meas_Ctrl_Param_Desp_t` (`csn1_ts_44_060.c:2781-2790`). -/
def t_Meas_Ctrl_Param_Desp : List Csn := [
  .nextExist false 0 4 3 false,
  .uint 4 4 1 false,
  .uint 8 1 3 false,
  .recArr 10 32 9 3,
  .nextExist false 44 4 1 false,
  .uint 48 4 1 false,
  .uint 52 1 5 false,
  .recArr 54 32 53 5]

/-- `Reselection_Based_On_RSRQ_t` (`csn1_ts_44_060.c:2793-2801`). -/
def t_Reselection_Based_On_RSRQ : List Csn := [
  .uint 0 1 5 false,
  .nextExist false 4 4 1 false,
  .uint 8 1 5 false,
  .nextExist false 12 4 1 false,
  .uint 16 1 4 false,
  .nextExist false 20 4 1 false,
  .uint 24 1 5 false]

/-- `Rept_EUTRAN_Enh_Cell_Resel_Param_t` (`csn1_ts_44_060.c:2804-2809`). -/
def t_Rept_EUTRAN_Enh_Cell_Resel_Param : List Csn := [
  .recArr 1 32 0 3,
  .union false 33 1 2,
  .uint 36 1 4 false,
  .typ 36 false t_Reselection_Based_On_RSRQ]

/-- `Enh_Cell_Reselect_Param_Desp_t` (`csn1_ts_44_060.c:2812-2814`). -/
def t_Enh_Cell_Reselect_Param_Desp : List Csn := [
  .recTArr 4 2048 64 32 0 t_Rept_EUTRAN_Enh_Cell_Resel_Param]

/-- `UTRAN_CSG_Cells_Reporting_Desp_t` (`csn1_ts_44_060.c:2817-2823`). -/
def t_UTRAN_CSG_Cells_Reporting_Desp : List Csn := [
  .nextExist false 0 4 2 false,
  .uint 4 1 3 false,
  .uint 5 1 6 false,
  .nextExist false 8 4 1 false,
  .uint 12 1 3 false]

/-- `EUTRAN_CSG_Cells_Reporting_Desp_t` (`csn1_ts_44_060.c:2826-2833`). -/
def t_EUTRAN_CSG_Cells_Reporting_Desp : List Csn := [
  .nextExist false 0 4 2 false,
  .uint 4 1 3 false,
  .uint 5 1 6 false,
  .nextExist false 8 4 2 false,
  .uint 12 1 3 false,
  .uint 13 1 6 false]

/-- `CSG_Cells_Reporting_Desp_t` (`csn1_ts_44_060.c:2837-2842`). -/
def t_CSG_Cells_Reporting_Desp : List Csn := [
  .nextExist false 0 4 1 false,
  .typ 4 false t_UTRAN_CSG_Cells_Reporting_Desp,
  .nextExist false 20 4 1 false,
  .typ 24 false t_EUTRAN_CSG_Cells_Reporting_Desp]

/-- `PMO_AdditionsR9_t` (`csn1_ts_44_060.c:2917-2922`). -/
def t_PMO_AdditionsR9 : List Csn := [
  .nextExist false 0 4 1 false,
  .typ 4 false t_Enh_Cell_Reselect_Param_Desp,
  .nextExist false 2056 4 1 false,
  .typ 2060 false t_CSG_Cells_Reporting_Desp]

/-- `PMO_AdditionsR8_t` (`csn1_ts_44_060.c:2925-2941`). -/
def t_PMO_AdditionsR8 : List Csn := [
  .nextExist false 0 4 2 false,
  .uint 4 1 1 false,
  .uint 5 1 1 false,
  .nextExist false 8 4 1 false,
  .typ 12 false t_PriorityAndEUTRAN_ParametersDescription_PMO,
  .nextExist false 26636 4 1 false,
  .typ 26640 false t_Individual_Priorities,
  .nextExist false 31072 4 1 false,
  .typ 31076 false t_ThreeG_CSG_Description,
  .nextExist false 42600 4 1 false,
  .typ 42604 false t_EUTRAN_CSG_Description,
  .nextExist false 54128 4 1 false,
  .typ 54132 false t_Meas_Ctrl_Param_Desp,
  .nextExist false 54220 4 1 true,
  .typ 54224 false t_PMO_AdditionsR9]

/-- `PMO_AdditionsR7_t` (`csn1_ts_44_060.c:2944-2955`). -/
def t_PMO_AdditionsR7 : List Csn := [
  .nextExist false 0 4 2 false,
  .uint 4 1 3 false,
  .uint 5 1 3 false,
  .nextExist false 8 4 2 false,
  .uint 12 1 3 false,
  .uint 13 1 3 false,
  .nextExist false 14 1 1 true,
  .typ 16 false t_PMO_AdditionsR8]

/-- `PMO_AdditionsR6_t` (`csn1_ts_44_060.c:2958-2962`). -/
def t_PMO_AdditionsR6 : List Csn := [
  .uint 0 1 1 false,
  .nextExist false 1 1 1 true,
  .typ 4 false t_PMO_AdditionsR7]

/-- `PMO_AdditionsR5_t` (`csn1_ts_44_060.c:2970-2981`). -/
def t_PMO_AdditionsR5 : List Csn := [
  .nextExist false 0 1 1 false,
  .uint 1 1 4 false,
  .nextExist false 2 1 1 false,
  .recTArr 4 6368 199 32 3 t_lu_ModeNeighbourCellParams,
  .nextExist false 6372 1 1 false,
  .typ 6376 false t_NC_lu_ModeOnlyCapableCellList,
  .nextExist false 35820 1 1 false,
  .typ 35821 false t_GPRS_AdditionalMeasurementParams3G,
  .nextExist false 35823 1 1 true,
  .typ 35824 false t_PMO_AdditionsR6]

/-- `PMO_AdditionsR4_t` (`csn1_ts_44_060.c:2998-3004`). -/
def t_PMO_AdditionsR4 : List Csn := [
  .uint 0 1 1 false,
  .nextExist false 1 1 1 false,
  .typ 2 false t_CCN_Support_Description,
  .nextExist false 19 1 1 true,
  .typ 20 false t_PMO_AdditionsR5]

/-- `PMO_AdditionsR99_t` (`csn1_ts_44_060.c:3007-3012`). -/
def t_PMO_AdditionsR99 : List Csn := [
  .nextExist false 0 1 1 false,
  .typ 4 false t_ENH_Measurement_Parameters_PMO,
  .nextExist false 928 1 1 true,
  .typ 932 false t_PMO_AdditionsR4]

/-- `PMO_AdditionsR98_t` (`csn1_ts_44_060.c:3051-3057`). -/
def t_PMO_AdditionsR98 : List Csn := [
  .nextExist false 0 1 1 false,
  .typ 1 false t_LSA_Parameters,
  .nextExist false 1058 1 1 true,
  .typ 1060 false t_PMO_AdditionsR99]

/-- `Packet_Measurement_Order_t` (`csn1_ts_44_060.c:3387-3406`). -/
def t_Packet_Measurement_Order : List Csn := [
  .uint 0 1 6 false,
  .uint 1 1 2 false,
  .typ 4 false t_PacketDownlinkID,
  .uint 12 1 3 false,
  .uint 13 1 3 false,
  .nextExist false 14 1 1 false,
  .typ 16 false t_NC_Measurement_Parameters_with_Frequency_List,
  .nextExist false 29500 1 1 false,
  .fixed 2 0,
  .nextExist false 29501 1 1 true,
  .typ 29504 false t_PMO_AdditionsR98,
  .padding]

/-- `PNCD_Container_Without_ID_t` (`csn1_ts_44_060.c:3580-3582`). -/
def t_PNCD_Container_Without_ID : List Csn := [
  .uintArr 0 19 8 19]

/-- `PNCD_Container_With_ID_t` (`csn1_ts_44_060.c:3573-3577`). -/
def t_PNCD_Container_With_ID : List Csn := [
  .uint 0 2 10 false,
  .uint 2 1 6 false,
  .uintArr 3 17 8 17]

/-- Selectors of `PNCDContainer` (`csn1_ts_44_060.c:3585-3589`). -/
def s_PNCDContainer : List (Nat × Nat) := [(1, 0), (1, 1)]

/-- Alternatives of `PNCDContainer`. -/
def c_PNCDContainer : List Csn := [
  .typ 2 false t_PNCD_Container_Without_ID,
  .typ 2 false t_PNCD_Container_With_ID]

/-- `PNCDContainer_t` (`csn1_ts_44_060.c:3592-3594`). -/
def t_PNCDContainer : List Csn := [
  .choice 0 1 s_PNCDContainer c_PNCDContainer]

/-- `Packet_Neighbour_Cell_Data_t` (`csn1_ts_44_060.c:3597-3609`). -/
def t_Packet_Neighbour_Cell_Data : List Csn := [
  .uint 0 1 6 false,
  .uint 1 1 2 false,
  .fixed 1 0,
  .typ 2 false t_Global_TFI,
  .uint 4 1 2 false,
  .uint 5 1 1 false,
  .uint 6 1 5 false,
  .typ 8 false t_PNCDContainer,
  .padding]

/-- `Packet_Serving_Cell_Data_t` (`csn1_ts_44_060.c:3613-3623`). -/
def t_Packet_Serving_Cell_Data : List Csn := [
  .uint 0 1 6 false,
  .uint 1 1 2 false,
  .fixed 1 0,
  .typ 2 false t_Global_TFI,
  .uint 4 1 4 false,
  .uint 5 1 5 false,
  .uintArr 6 19 8 19,
  .padding]

/-- `Mobile_Identity_t` (`csn1_ts_44_060.c:1598-1601`). -/
def t_Mobile_Identity : List Csn := [
  .uint 0 1 4 false,
  .varArr 1 8 0 0]

/-- `Page_request_for_TBF_establishment_t` (`csn1_ts_44_060.c:1604-1608`). -/
def t_Page_request_for_TBF_establishment : List Csn := [
  .union false 0 1 2,
  .uintArr 1 4 8 4,
  .typ 1 false t_Mobile_Identity]

/-- `Page_request_for_RR_conn_t` (`csn1_ts_44_060.c:1611-1620`). -/
def t_Page_request_for_RR_conn : List Csn := [
  .union false 0 1 2,
  .uintArr 1 4 8 4,
  .typ 1 false t_Mobile_Identity,
  .uint 11 1 2 false,
  .nextExist false 12 1 1 false,
  .uint 13 1 3 false]

/-- `Repeated_Page_info_t` (`csn1_ts_44_060.c:1623-1627`). -/
def t_Repeated_Page_info : List Csn := [
  .union false 0 1 2,
  .typ 1 false t_Page_request_for_TBF_establishment,
  .typ 1 false t_Page_request_for_RR_conn]

/-- `Packet_Paging_Request_t` (`csn1_ts_44_060.c:1630-1642`). -/
def t_Packet_Paging_Request : List Csn := [
  .uint 0 1 6 false,
  .uint 1 1 2 false,
  .nextExist false 2 1 1 false,
  .uintArr 3 4 4 4,
  .nextExist false 7 1 1 false,
  .uint 8 1 2 false,
  .recTArr 10 75 15 5 9 t_Repeated_Page_info,
  .padding]

/-- `Packet_PDCH_Release_t` (`csn1_ts_44_060.c:1645-1652`). -/
def t_Packet_PDCH_Release : List Csn := [
  .uint 0 1 6 false,
  .uint 1 1 2 false,
  .fixed 1 1,
  .uint 2 1 8 false,
  .padding]

/-- Selectors of `PacketPollingID` (`csn1_ts_44_060.c:211-217`). -/
def s_PacketPollingID : List (Nat × Nat) := [(1, 0), (2, 2), (3, 6)]

/-- Alternatives of `PacketPollingID`. -/
def c_PacketPollingID : List Csn := [
  .typ 4 false t_Global_TFI,
  .uint 4 4 32 false,
  .uint 4 2 16 false]

/-- `PacketPollingID_t` (`csn1_ts_44_060.c:220-222`). -/
def t_PacketPollingID : List Csn := [
  .choice 0 1 s_PacketPollingID c_PacketPollingID]

/-- `Packet_Polling_Request_t` (`csn1_ts_44_060.c:225-231`). -/
def t_Packet_Polling_Request : List Csn := [
  .uint 0 1 6 false,
  .uint 1 1 2 false,
  .typ 4 false t_PacketPollingID,
  .uint 12 1 1 false,
  .padding]

/-- Selectors of `PacketPowerControlTimingAdvanceID` (`csn1_ts_44_060.c:1669-1674`). -/
def s_PacketPowerControlTimingAdvanceID : List (Nat × Nat) := [(1, 0), (3, 6), (3, 7)]

/-- Alternatives of `PacketPowerControlTimingAdvanceID`. -/
def c_PacketPowerControlTimingAdvanceID : List Csn := [
  .typ 2 false t_Global_TFI,
  .uint 2 2 16 false,
  .typ 2 false t_Packet_Request_Reference]

/-- `PacketPowerControlTimingAdvanceID_t` (`csn1_ts_44_060.c:1677-1679`). -/
def t_PacketPowerControlTimingAdvanceID : List Csn := [
  .choice 0 1 s_PacketPowerControlTimingAdvanceID c_PacketPowerControlTimingAdvanceID]

/-- `Global_Power_Control_Parameters_t` (`csn1_ts_44_060.c:110-118`). -/
def t_Global_Power_Control_Parameters : List Csn := [
  .uint 0 1 4 false,
  .uint 1 1 5 false,
  .uint 2 1 5 false,
  .uint 3 1 4 false,
  .uint 4 1 1 false,
  .uint 5 1 1 false,
  .uint 6 1 4 false]

/-- `Global_Packet_Timing_Advance_t` (`csn1_ts_44_060.c:122-133`). -/
def t_Global_Packet_Timing_Advance : List Csn := [
  .nextExist false 0 1 1 false,
  .uint 1 1 6 false,
  .nextExist false 2 1 2 false,
  .uint 3 1 4 false,
  .uint 4 1 3 false,
  .nextExist false 5 1 2 false,
  .uint 6 1 4 false,
  .uint 7 1 3 false]

/-- `GlobalTimingAndPower_t` (`csn1_ts_44_060.c:1656-1659`). -/
def t_GlobalTimingAndPower : List Csn := [
  .typ 0 false t_Global_Packet_Timing_Advance,
  .typ 8 false t_Power_Control_Parameters]

/-- `GlobalTimingOrPower_t` (`csn1_ts_44_060.c:1662-1666`). -/
def t_GlobalTimingOrPower : List Csn := [
  .union false 0 1 2,
  .typ 1 false t_Global_Packet_Timing_Advance,
  .typ 1 false t_Power_Control_Parameters]

/-- `Packet_Power_Control_Timing_Advance_t` (`csn1_ts_44_060.c:1682-1699`). -/
def t_Packet_Power_Control_Timing_Advance : List Csn := [
  .uint 0 1 6 false,
  .uint 1 1 2 false,
  .typ 2 false t_PacketPowerControlTimingAdvanceID,
  .fixed 1 0,
  .nextExist false 8 1 1 false,
  .typ 9 false t_Global_Power_Control_Parameters,
  .union false 16 1 2,
  .typ 17 false t_GlobalTimingAndPower,
  .typ 17 false t_GlobalTimingOrPower,
  .padding]

/-- `PRACH_Control_t` (`csn1_ts_44_060.c:1850-1857`). -/
def t_PRACH_Control : List Csn := [
  .uintArr 0 2 8 2,
  .uintArr 2 4 2 4,
  .uint 6 1 4 false,
  .uint 7 1 4 false,
  .nextExist false 8 1 1 false,
  .uintArr 9 4 4 4]

/-- `Packet_PRACH_Parameters_t` (`csn1_ts_44_060.c:1959-1965`). -/
def t_Packet_PRACH_Parameters : List Csn := [
  .uint 0 1 6 false,
  .uint 1 1 2 false,
  .typ 2 false t_PRACH_Control,
  .padding]

/-- `Packet_Queueing_Notification_t` (`csn1_ts_44_060.c:1703-1712`). -/
def t_Packet_Queueing_Notification : List Csn := [
  .uint 0 1 6 false,
  .uint 1 1 2 false,
  .fixed 3 7,
  .typ 2 false t_Packet_Request_Reference,
  .uint 6 2 16 false,
  .padding]

/-- `Timeslot_Allocation_t` (`csn1_ts_44_060.c:1103-1106`). -/
def t_Timeslot_Allocation : List Csn := [
  .nextExist false 0 1 1 false,
  .uint 1 1 3 false]

/-- `Timeslot_Allocation_Power_Ctrl_Param_t` (`csn1_ts_44_060.c:1109-1143`). -/
def t_Timeslot_Allocation_Power_Ctrl_Param : List Csn := [
  .uint 0 1 4 false,
  .nextExist false 1 1 2 false,
  .uint 2 1 3 false,
  .uint 3 1 5 false,
  .nextExist false 4 1 2 false,
  .uint 5 1 3 false,
  .uint 6 1 5 false,
  .nextExist false 7 1 2 false,
  .uint 8 1 3 false,
  .uint 9 1 5 false,
  .nextExist false 10 1 2 false,
  .uint 11 1 3 false,
  .uint 12 1 5 false,
  .nextExist false 13 1 2 false,
  .uint 14 1 3 false,
  .uint 15 1 5 false,
  .nextExist false 16 1 2 false,
  .uint 17 1 3 false,
  .uint 18 1 5 false,
  .nextExist false 19 1 2 false,
  .uint 20 1 3 false,
  .uint 21 1 5 false,
  .nextExist false 22 1 2 false,
  .uint 23 1 3 false,
  .uint 24 1 5 false]

/-- `TRDynamic_Allocation_t` (`csn1_ts_44_060.c:1719-1737`). -/
def t_TRDynamic_Allocation : List Csn := [
  .uint 0 1 1 false,
  .nextExist false 1 1 2 false,
  .uint 2 1 4 false,
  .uint 3 1 1 false,
  .uint 4 1 1 false,
  .nextExist false 7 1 1 false,
  .uint 8 1 8 false,
  .nextExist false 9 1 1 false,
  .typ 10 false t_Starting_Frame_Number,
  .union false 16 1 2,
  .tarr 17 16 2 8 t_Timeslot_Allocation,
  .typ 17 false t_Timeslot_Allocation_Power_Ctrl_Param]

/-- `PTR_GPRS_AdditionsR99_t` (`csn1_ts_44_060.c:1741-1744`). -/
def t_PTR_GPRS_AdditionsR99 : List Csn := [
  .nextExist false 0 4 1 false,
  .uint 4 1 2 false]

/-- `PTR_GPRS_t` (`csn1_ts_44_060.c:1747-1770`). -/
def t_PTR_GPRS : List Csn := [
  .uint 0 1 2 false,
  .typ 2 false t_Global_Packet_Timing_Advance,
  .uint 10 1 1 false,
  .uint 11 1 1 false,
  .nextExist false 12 1 1 false,
  .uint 13 1 5 false,
  .nextExist false 14 1 1 false,
  .uint 15 1 5 false,
  .uint 16 1 8 false,
  .nextExist false 17 1 1 false,
  .typ 18 false t_Frequency_Parameters,
  .union false 46 1 2,
  .typ 48 false t_TRDynamic_Allocation,
  .trap (-8),
  .nextExist false 92 4 1 true,
  .typ 96 false t_PTR_GPRS_AdditionsR99]

/-- `PTR_EGPRS_00_t` (`csn1_ts_44_060.c:1773-1810`). -/
def t_PTR_EGPRS_00 : List Csn := [
  .nextExist false 0 4 1 false,
  .typ 4 false t_COMPACT_ReducedMA,
  .uint 32 1 4 false,
  .uint 33 1 1 false,
  .nextExist false 36 4 1 false,
  .uint 40 1 5 false,
  .nextExist false 44 4 1 false,
  .uint 48 1 5 false,
  .uint 49 1 2 false,
  .typ 58 false t_Global_Packet_Timing_Advance,
  .nextExist false 52 4 1 false,
  .uint 56 1 2 false,
  .uint 66 1 1 false,
  .uint 67 1 1 false,
  .nextExist false 68 1 1 false,
  .uint 69 1 5 false,
  .nextExist false 70 1 1 false,
  .uint 71 1 5 false,
  .uint 72 1 8 false,
  .nextExist false 73 1 1 false,
  .typ 74 false t_Frequency_Parameters,
  .union false 102 1 2,
  .typ 104 false t_TRDynamic_Allocation,
  .trap (-8)]

/-- `PTR_EGPRS_t` (`csn1_ts_44_060.c:1813-1819`). -/
def t_PTR_EGPRS : List Csn := [
  .union false 0 1 4,
  .typ 4 false t_PTR_EGPRS_00,
  .trap (-8),
  .trap (-8),
  .trap (-8)]

/-- `Packet_Timeslot_Reconfigure_t` (`csn1_ts_44_060.c:1822-1834`). -/
def t_Packet_Timeslot_Reconfigure : List Csn := [
  .uint 0 1 6 false,
  .uint 1 1 2 false,
  .fixed 1 0,
  .typ 2 false t_Global_TFI,
  .union false 4 1 2,
  .typ 8 false t_PTR_GPRS,
  .typ 8 false t_PTR_EGPRS,
  .padding]

/-- `Packet_TBF_Release_t` (`csn1_ts_44_060.c:318-327`). -/
def t_Packet_TBF_Release : List Csn := [
  .uint 0 1 6 false,
  .uint 1 1 2 false,
  .fixed 1 0,
  .typ 2 false t_Global_TFI,
  .uint 4 1 1 false,
  .uint 5 1 1 false,
  .uint 6 1 4 false,
  .padding]

/-- `PU_AckNack_GPRS_AdditionsR99_t` (`csn1_ts_44_060.c:969-974`). -/
def t_PU_AckNack_GPRS_AdditionsR99 : List Csn := [
  .nextExist false 0 4 1 false,
  .uint 4 1 2 false,
  .uint 5 1 1 false]

/-- `PU_AckNack_GPRS_t` (`csn1_ts_44_060.c:977-999`). -/
def t_PU_AckNack_GPRS : List Csn := [
  .uint 0 1 2 false,
  .typ 1 false t_Ack_Nack_Description,
  .nextExist false 28 1 1 false,
  .uint 32 4 32 false,
  .nextExist false 36 1 1 false,
  .typ 37 false t_Packet_Timing_Advance,
  .nextExist false 52 1 1 false,
  .typ 53 false t_Power_Control_Parameters,
  .nextExist false 42 1 1 false,
  .typ 43 false t_Extension_Bits,
  .union false 11 1 2,
  .uint 12 1 1 false,
  .trap (-8),
  .nextExist false 16 4 1 true,
  .typ 20 false t_PU_AckNack_GPRS_AdditionsR99]

/-- `PU_AckNack_EGPRS_00_t` (`csn1_ts_44_060.c:1002-1028`). -/
def t_PU_AckNack_EGPRS_00 : List Csn := [
  .uint 0 1 4 false,
  .uint 1 1 1 false,
  .uint 2 1 1 false,
  .uint 3 1 1 false,
  .uint 4 1 1 false,
  .nextExist false 96 1 1 false,
  .uint 100 4 32 false,
  .uint 5 1 1 false,
  .nextExist false 104 1 1 false,
  .typ 105 false t_Packet_Timing_Advance,
  .nextExist false 8 4 1 false,
  .uint 12 1 2 false,
  .nextExist false 120 1 1 false,
  .typ 121 false t_Power_Control_Parameters,
  .nextExist false 110 1 1 false,
  .typ 111 false t_Extension_Bits,
  .typ 16 false t_EGPRS_AckNack]

/-- `PU_AckNack_EGPRS_t` (`csn1_ts_44_060.c:1031-1038`). -/
def t_PU_AckNack_EGPRS : List Csn := [
  .union false 0 1 4,
  .typ 4 false t_PU_AckNack_EGPRS_00,
  .trap (-8),
  .trap (-8),
  .trap (-8)]

/-- `Packet_Uplink_Ack_Nack_t` (`csn1_ts_44_060.c:1041-1051`). -/
def t_Packet_Uplink_Ack_Nack : List Csn := [
  .uint 0 1 6 false,
  .uint 1 1 2 false,
  .fixed 2 0,
  .uint 2 1 5 false,
  .union false 3 1 2,
  .typ 4 false t_PU_AckNack_GPRS,
  .typ 4 false t_PU_AckNack_EGPRS,
  .padding]

/-- Selectors of `PacketUplinkID` (`csn1_ts_44_060.c:1279-1285`). -/
def s_PacketUplinkID : List (Nat × Nat) := [(1, 0), (2, 2), (3, 6), (3, 7)]

/-- Alternatives of `PacketUplinkID`. -/
def c_PacketUplinkID : List Csn := [
  .typ 4 false t_Global_TFI,
  .uint 4 4 32 false,
  .uint 4 2 16 false,
  .typ 4 false t_Packet_Request_Reference]

/-- `PacketUplinkID_t` (`csn1_ts_44_060.c:1288-1290`). -/
def t_PacketUplinkID : List Csn := [
  .choice 0 1 s_PacketUplinkID c_PacketUplinkID]

/-- `Dynamic_Allocation_t` (`csn1_ts_44_060.c:1147-1168`). -/
def t_Dynamic_Allocation : List Csn := [
  .uint 0 1 1 false,
  .nextExist false 1 1 2 false,
  .uint 2 1 4 false,
  .uint 3 1 1 false,
  .uint 4 1 1 false,
  .nextExist false 5 1 1 false,
  .uint 6 1 5 false,
  .nextExist false 7 1 1 false,
  .uint 8 1 8 false,
  .nextExist false 9 1 1 false,
  .typ 10 false t_Starting_Frame_Number,
  .union false 16 1 2,
  .tarr 17 16 2 8 t_Timeslot_Allocation,
  .typ 17 false t_Timeslot_Allocation_Power_Ctrl_Param]

/-- `Single_Block_Allocation_t` (`csn1_ts_44_060.c:1171-1184`). -/
def t_Single_Block_Allocation : List Csn := [
  .uint 0 1 3 false,
  .nextExist false 1 1 2 false,
  .uint 2 1 4 false,
  .uint 3 1 5 false,
  .nextExist false 4 1 3 false,
  .uint 5 1 4 false,
  .uint 6 1 1 false,
  .uint 7 1 1 false,
  .typ 8 false t_Starting_Frame_Number]

/-- `PUA_GPRS_AdditionsR99_t` (`csn1_ts_44_060.c:1293-1296`). -/
def t_PUA_GPRS_AdditionsR99 : List Csn := [
  .nextExist false 0 4 1 false,
  .uint 4 1 2 false]

/-- `PUA_GPRS_t` (`csn1_ts_44_060.c:1299-1315`). -/
def t_PUA_GPRS : List Csn := [
  .uint 0 1 2 false,
  .uint 1 1 1 false,
  .typ 2 false t_Packet_Timing_Advance,
  .nextExist false 7 1 1 false,
  .typ 8 false t_Frequency_Parameters,
  .union false 36 1 4,
  .trap (-8),
  .typ 38 false t_Dynamic_Allocation,
  .typ 38 false t_Single_Block_Allocation,
  .trap (-8),
  .nextExist false 80 4 1 true,
  .typ 84 false t_PUA_GPRS_AdditionsR99]

/-- `MultiBlock_Allocation_t` (`csn1_ts_44_060.c:1327-1341`). -/
def t_MultiBlock_Allocation : List Csn := [
  .uint 0 1 3 false,
  .nextExist false 4 4 2 false,
  .uint 8 1 4 false,
  .uint 9 1 5 false,
  .nextExist false 12 4 3 false,
  .uint 16 1 4 false,
  .uint 17 1 1 false,
  .uint 18 1 1 false,
  .typ 20 false t_Starting_Frame_Number,
  .uint 26 1 2 false]

/-- `PUA_EGPRS_00_t` (`csn1_ts_44_060.c:1344-1376`). -/
def t_PUA_EGPRS_00 : List Csn := [
  .nextExist false 0 4 1 false,
  .uint 4 4 32 false,
  .nextExist false 8 4 1 false,
  .typ 12 false t_COMPACT_ReducedMA,
  .uint 40 1 4 false,
  .uint 41 1 1 false,
  .uint 42 1 5 false,
  .recArr 44 12 43 4,
  .uint 56 1 1 false,
  .uint 57 1 1 false,
  .nextExist false 60 4 1 false,
  .uint 64 1 4 false,
  .typ 65 false t_Packet_Timing_Advance,
  .nextExist false 72 4 1 false,
  .uint 76 1 2 false,
  .nextExist false 80 4 1 false,
  .typ 84 false t_Frequency_Parameters,
  .union false 112 1 4,
  .trap (-8),
  .typ 116 false t_Dynamic_Allocation,
  .typ 116 false t_MultiBlock_Allocation,
  .trap (-8)]

/-- `PUA_EGPRS_t` (`csn1_ts_44_060.c:1379-1385`). -/
def t_PUA_EGPRS : List Csn := [
  .union false 0 1 4,
  .typ 4 false t_PUA_EGPRS_00,
  .trap (-8),
  .trap (-8),
  .trap (-8)]

/-- `Packet_Uplink_Assignment_t` (`csn1_ts_44_060.c:1388-1402`). -/
def t_Packet_Uplink_Assignment : List Csn := [
  .uint 0 1 6 false,
  .uint 1 1 2 false,
  .nextExist false 2 1 1 false,
  .uintArr 3 4 4 4,
  .typ 8 false t_PacketUplinkID,
  .union false 16 1 2,
  .typ 20 false t_PUA_GPRS,
  .typ 20 false t_PUA_EGPRS,
  .padding]

/-- `PHO_TimingAdvance_t` (`csn1_ts_44_060.c:3743-3747`). -/
def t_PHO_TimingAdvance : List Csn := [
  .typ 0 false t_Global_Packet_Timing_Advance,
  .nextExist false 8 1 1 false,
  .uint 9 1 2 false]

/-- `GlobalTimeslotDescription_t` (`csn1_ts_44_060.c:3627-3631`). -/
def t_GlobalTimeslotDescription : List Csn := [
  .union false 0 1 2,
  .uint 1 1 8 false,
  .typ 1 false t_Power_Control_Parameters]

/-- `PHO_USF_1_7_t` (`csn1_ts_44_060.c:3646-3649`). -/
def t_PHO_USF_1_7 : List Csn := [
  .nextExist false 0 4 1 false,
  .uint 4 1 3 false]

/-- `USF_AllocationArray_t` (`csn1_ts_44_060.c:3652-3655`). -/
def t_USF_AllocationArray : List Csn := [
  .uint 0 1 3 false,
  .vtarr true 4 56 8 60 t_PHO_USF_1_7]

/-- `PHO_UplinkAssignment_t` (`csn1_ts_44_060.c:3658-3680`). -/
def t_PHO_UplinkAssignment : List Csn := [
  .uint 0 1 7 false,
  .uint 1 1 1 false,
  .uint 2 1 5 false,
  .nextExist false 3 1 1 false,
  .uint 4 1 2 false,
  .nextExist false 5 1 1 false,
  .uint 6 1 4 false,
  .nextExist false 7 1 1 false,
  .uint 8 1 5 false,
  .uint 9 1 1 false,
  .nextExist false 10 1 1 false,
  .leftBmp false 11 1 76 0,
  .union false 12 1 2,
  .uint 16 1 3 false,
  .typ 16 false t_USF_AllocationArray]

/-- `GlobalTimeslotDescription_UA_t` (`csn1_ts_44_060.c:3683-3689`). -/
def t_GlobalTimeslotDescription_UA : List Csn := [
  .typ 0 false t_GlobalTimeslotDescription,
  .nextExist false 18 1 2 false,
  .typ 20 false t_PHO_UplinkAssignment,
  .fixed 1 0]

/-- `PHO_DownlinkAssignment_t` (`csn1_ts_44_060.c:3634-3643`). -/
def t_PHO_DownlinkAssignment : List Csn := [
  .uint 0 1 8 false,
  .uint 1 1 7 false,
  .uint 2 1 1 false,
  .uint 3 1 5 false,
  .uint 4 1 1 false,
  .nextExist false 5 1 1 false,
  .uint 6 1 5 false]

/-- `PHO_GPRS_t` (`csn1_ts_44_060.c:3692-3702`). -/
def t_PHO_GPRS : List Csn := [
  .nextExist false 0 1 1 false,
  .uint 1 1 2 false,
  .nextExist false 2 1 1 false,
  .typ 4 false t_GlobalTimeslotDescription_UA,
  .nextExist false 104 1 2 false,
  .typ 105 false t_PHO_DownlinkAssignment,
  .fixed 1 0]

/-- `EGPRS_Description_t` (`csn1_ts_44_060.c:3705-3712`). -/
def t_EGPRS_Description : List Csn := [
  .nextExist false 0 1 1 false,
  .uint 1 1 5 false,
  .uint 2 1 2 false,
  .nextExist false 3 1 1 false,
  .uint 4 1 4 false]

/-- `DownlinkTBF_t` (`csn1_ts_44_060.c:3715-3722`). -/
def t_DownlinkTBF : List Csn := [
  .nextExist false 0 1 1 false,
  .typ 1 false t_EGPRS_Description,
  .nextExist false 6 1 2 false,
  .typ 7 false t_PHO_DownlinkAssignment,
  .fixed 1 0]

/-- `PHO_EGPRS_t` (`csn1_ts_44_060.c:3725-3740`). -/
def t_PHO_EGPRS : List Csn := [
  .nextExist false 0 1 1 false,
  .uint 1 1 5 false,
  .nextExist false 2 1 1 false,
  .uint 3 1 4 false,
  .nextExist false 4 1 1 false,
  .uint 5 1 4 false,
  .nextExist false 6 1 1 false,
  .typ 8 false t_GlobalTimeslotDescription_UA,
  .nextExist false 108 1 1 false,
  .typ 109 false t_DownlinkTBF]

/-- `PHO_RadioResources_t` (`csn1_ts_44_060.c:3775-3810`). -/
def t_PHO_RadioResources : List Csn := [
  .nextExist false 0 1 1 false,
  .uint 1 1 8 false,
  .uint 2 1 10 false,
  .uint 3 1 2 false,
  .uint 4 1 1 false,
  .uint 5 1 6 false,
  .nextExist false 6 1 1 false,
  .uint 7 1 1 false,
  .nextExist false 8 1 1 false,
  .uint 9 1 1 false,
  .nextExist false 10 1 1 false,
  .typ 11 false t_CCN_Support_Description,
  .typ 28 false t_Frequency_Parameters,
  .uint 56 1 2 false,
  .nextExist false 57 1 1 false,
  .typ 58 false t_PHO_TimingAdvance,
  .uint 68 1 1 false,
  .uint 69 1 1 false,
  .nextExist false 70 1 2 false,
  .uint 71 1 4 false,
  .uint 72 1 1 false,
  .nextExist false 73 1 1 false,
  .uint 74 1 3 false,
  .union false 75 1 2,
  .typ 76 false t_PHO_GPRS,
  .typ 76 false t_PHO_EGPRS]

/-- `NAS_Container_For_PS_HO_t` (`csn1_ts_44_060.c:3750-3759`). -/
def t_NAS_Container_For_PS_HO : List Csn := [
  .uint 0 1 7 false,
  .uint 1 1 1 false,
  .uint 2 1 1 false,
  .uint 3 1 1 false,
  .uint 4 1 1 false,
  .uint 5 1 1 false,
  .uint 6 1 3 false,
  .uint 8 4 32 false]

/-- `PS_HandoverTo_A_GB_ModePayload_t` (`csn1_ts_44_060.c:3813-3819`). -/
def t_PS_HandoverTo_A_GB_ModePayload : List Csn := [
  .fixed 2 0,
  .typ 0 false t_PHO_RadioResources,
  .nextExist false 200 1 1 false,
  .typ 204 false t_NAS_Container_For_PS_HO]

/-- `PS_HandoverTo_UTRAN_Payload_t` (`csn1_ts_44_060.c:3762-3765`). -/
def t_PS_HandoverTo_UTRAN_Payload : List Csn := [
  .uint 0 1 8 false,
  .varArr 1 255 0 0]

/-- `PS_HandoverTo_E_UTRAN_Payload_t` (`csn1_ts_44_060.c:3769-3772`). -/
def t_PS_HandoverTo_E_UTRAN_Payload : List Csn := [
  .uint 0 1 8 false,
  .varArr 1 255 0 0]

/-- `Packet_Handover_Command_t` (`csn1_ts_44_060.c:3822-3838`). -/
def t_Packet_Handover_Command : List Csn := [
  .uint 0 1 6 false,
  .uint 1 1 2 false,
  .fixed 1 0,
  .typ 2 false t_Global_TFI,
  .uint 4 1 2 false,
  .union false 5 1 4,
  .typ 8 false t_PS_HandoverTo_A_GB_ModePayload,
  .typ 8 false t_PS_HandoverTo_UTRAN_Payload,
  .typ 8 false t_PS_HandoverTo_E_UTRAN_Payload,
  .trap (-8),
  .padding]

/-- `Packet_PhysicalInformation_t` (`csn1_ts_44_060.c:3845-3853`). -/
def t_Packet_PhysicalInformation : List Csn := [
  .uint 0 1 6 false,
  .uint 1 1 2 false,
  .typ 2 false t_Global_TFI,
  .uint 4 1 8 false,
  .padding]

/-- `Packet_Downlink_Dummy_Control_Block_t` (`csn1_ts_44_060.c:364-371`). -/
def t_Packet_Downlink_Dummy_Control_Block : List Csn := [
  .uint 0 1 6 false,
  .uint 1 1 2 false,
  .nextExist false 2 1 1 false,
  .uintArr 3 4 4 4,
  .padding]

/-- `GPRS_Cell_Options_t` (`csn1_ts_44_060.c:261-277`). -/
def t_GPRS_Cell_Options : List Csn := [
  .uint 0 1 2 false,
  .uint 1 1 3 false,
  .uint 2 1 3 false,
  .uint 3 1 3 false,
  .uint 4 1 1 false,
  .uint 5 1 1 false,
  .uint 6 1 4 false,
  .nextExist false 7 1 3 false,
  .uint 8 1 3 false,
  .uint 9 1 3 false,
  .uint 10 1 3 false,
  .nextExist false 11 1 1 false,
  .typ 12 false t_Extension_Bits]

/-- `PCCCH_Organization_t` (`csn1_ts_44_060.c:3920-3925`). -/
def t_PCCCH_Organization : List Csn := [
  .uint 0 1 1 false,
  .uint 1 1 2 false,
  .uint 2 1 4 false,
  .uint 3 1 4 false]

/-- `PSI1_AdditionsR6_t` (`csn1_ts_44_060.c:3906-3908`). -/
def t_PSI1_AdditionsR6 : List Csn := [
  .uint 0 1 5 false]

/-- `PSI1_AdditionsR99_t` (`csn1_ts_44_060.c:3911-3917`). -/
def t_PSI1_AdditionsR99 : List Csn := [
  .uint 0 1 1 false,
  .uint 1 1 1 false,
  .uint 2 1 1 false,
  .nextExist false 4 4 1 true,
  .typ 8 false t_PSI1_AdditionsR6]

/-- `PSI1_t` (`csn1_ts_44_060.c:3929-3952`). -/
def t_PSI1 : List Csn := [
  .uint 0 1 6 false,
  .uint 1 1 2 false,
  .uint 2 1 3 false,
  .uint 3 1 4 false,
  .uint 4 1 4 false,
  .uint 5 1 6 false,
  .nextExist false 6 1 1 false,
  .uint 7 1 4 false,
  .uint 8 1 1 false,
  .typ 9 false t_GPRS_Cell_Options,
  .typ 30 false t_PRACH_Control,
  .typ 43 false t_PCCCH_Organization,
  .typ 47 false t_Global_Power_Control_Parameters,
  .uint 54 1 1 false,
  .nextExist false 56 4 1 true,
  .typ 60 false t_PSI1_AdditionsR99,
  .padding]

/-- `LAI_t` (`csn1_ts_44_060.c:3959-3962`). -/
def t_LAI : List Csn := [
  .typ 0 false t_PLMN,
  .uint 6 2 16 false]

/-- `Cell_Identification_t` (`csn1_ts_44_060.c:3965-3969`). -/
def t_Cell_Identification : List Csn := [
  .typ 0 false t_LAI,
  .uint 8 1 8 false,
  .uint 10 2 16 false]

/-- `Non_GPRS_Cell_Options_t` (`csn1_ts_44_060.c:3972-3992`). -/
def t_Non_GPRS_Cell_Options : List Csn := [
  .uint 0 1 1 false,
  .nextExist false 1 1 1 false,
  .uint 2 1 8 false,
  .uint 3 1 1 false,
  .uint 4 1 1 false,
  .uint 5 1 2 false,
  .uint 6 1 4 false,
  .uint 7 1 3 false,
  .uint 8 1 3 false,
  .uint 9 1 3 false,
  .uint 10 1 2 false,
  .uint 11 1 4 false,
  .uint 12 1 1 false,
  .uint 13 1 5 false,
  .nextExist false 14 1 1 false,
  .typ 15 false t_Extension_Bits]

/-- `Reference_Frequency_t` (`csn1_ts_44_060.c:3995-3999`). -/
def t_Reference_Frequency : List Csn := [
  .uint 0 1 4 false,
  .uintOfs 1 1 4 3,
  .varArr 2 1 1 0]

/-- `Cell_Allocation_t` (`csn1_ts_44_060.c:1860-1862`). -/
def t_Cell_Allocation : List Csn := [
  .recArr 1 4 0 4]

/-- `PSI2_MA_t` (`csn1_ts_44_060.c:4002-4005`). -/
def t_PSI2_MA : List Csn := [
  .uint 0 1 4 false,
  .typ 1 false t_GPRS_Mobile_Allocation]

/-- `Non_Hopping_PCCCH_Carriers_t` (`csn1_ts_44_060.c:4008-4011`). -/
def t_Non_Hopping_PCCCH_Carriers : List Csn := [
  .uint 0 2 10 false,
  .uint 2 1 8 false]

/-- `NonHoppingPCCCH_t` (`csn1_ts_44_060.c:4014-4016`). -/
def t_NonHoppingPCCCH : List Csn := [
  .recTArr 2 28 4 7 0 t_Non_Hopping_PCCCH_Carriers]

/-- `Hopping_PCCCH_Carriers_t` (`csn1_ts_44_060.c:4019-4022`). -/
def t_Hopping_PCCCH_Carriers : List Csn := [
  .uint 0 1 6 false,
  .uint 1 1 8 false]

/-- `HoppingPCCCH_t` (`csn1_ts_44_060.c:4025-4028`). -/
def t_HoppingPCCCH : List Csn := [
  .uint 0 1 4 false,
  .recTArr 2 20 2 10 1 t_Hopping_PCCCH_Carriers]

/-- `PCCCH_Description_t` (`csn1_ts_44_060.c:4031-4036`). -/
def t_PCCCH_Description : List Csn := [
  .uint 0 1 3 false,
  .union false 1 1 2,
  .typ 2 false t_NonHoppingPCCCH,
  .typ 2 false t_HoppingPCCCH]

/-- `PSI2_t` (`csn1_ts_44_060.c:4039-4058`). -/
def t_PSI2 : List Csn := [
  .uint 0 1 6 false,
  .uint 1 1 2 false,
  .uint 2 1 2 false,
  .uint 3 1 3 false,
  .uint 4 1 3 false,
  .nextExist false 5 1 1 false,
  .typ 6 false t_Cell_Identification,
  .nextExist false 18 1 1 false,
  .typ 19 false t_Non_GPRS_Cell_Options,
  .recTArr 44 80 20 4 43 t_Reference_Frequency,
  .typ 124 false t_Cell_Allocation,
  .recTArr 130 200 25 8 129 t_PSI2_MA,
  .recTArr 332 224 32 7 330 t_PCCCH_Description,
  .padding]

/-- `Serving_Cell_params_t` (`csn1_ts_44_060.c:4065-4073`). -/
def t_Serving_Cell_params : List Csn := [
  .uint 0 1 1 false,
  .uint 1 1 1 false,
  .uint 2 1 6 false,
  .uint 3 1 5 false,
  .nextExist false 4 1 1 false,
  .typ 5 false t_HCS,
  .uint 7 1 2 false]

/-- `Gen_Cell_Sel_t` (`csn1_ts_44_060.c:4077-4088`). -/
def t_Gen_Cell_Sel : List Csn := [
  .uint 0 1 3 false,
  .uint 1 1 1 false,
  .uint 2 1 1 false,
  .fixed 1 1,
  .nextExist false 4 1 1 false,
  .uint 5 1 3 false,
  .nextExist false 6 1 1 false,
  .uint 7 1 3 false]

/-- `Cell_Selection_t` (`csn1_ts_44_060.c:1884-1901`). -/
def t_Cell_Selection : List Csn := [
  .uint 0 1 6 false,
  .uint 1 1 1 false,
  .uint 2 1 1 false,
  .uint 3 1 1 false,
  .nextExist false 4 1 2 false,
  .uint 5 1 6 false,
  .uint 6 1 5 false,
  .nextExist false 7 1 2 false,
  .uint 8 1 3 false,
  .uint 9 1 5 false,
  .nextExist false 10 1 1 false,
  .uint 11 1 5 false,
  .nextExist false 12 1 1 false,
  .typ 13 false t_HCS,
  .nextExist false 15 1 1 false,
  .typ 16 false t_SI13_PBCCH_Location]

/-- `Cell_Selection_Params_With_FreqDiff_t` (`csn1_ts_44_060.c:1904-1907`). -/
def t_Cell_Selection_Params_With_FreqDiff : List Csn := [
  .varBmp 1 1 0 0,
  .typ 2 false t_Cell_Selection]

/-- `NeighbourCellParameters_t` (`csn1_ts_44_060.c:1925-1932`). -/
def t_NeighbourCellParameters : List Csn := [
  .uint 0 2 10 false,
  .typ 2 false t_Cell_Selection,
  .uint 21 1 4 false,
  .uintOfs 22 1 3 1,
  .cbCopy 22 23 21 359,
  .vtarr false 23 336 21 21 t_Cell_Selection_Params_With_FreqDiff]

/-- `NeighbourCellList_t` (`csn1_ts_44_060.c:1935-1937`). -/
def t_NeighbourCellList : List Csn := [
  .recTArr 2 11520 360 32 0 t_NeighbourCellParameters]

/-- `COMPACT_Cell_Sel_t` (`csn1_ts_44_060.c:4092-4111`). -/
def t_COMPACT_Cell_Sel : List Csn := [
  .uint 0 1 6 false,
  .uint 1 1 1 false,
  .uint 2 1 1 false,
  .uint 3 1 1 false,
  .nextExist false 4 1 2 false,
  .uint 5 1 6 false,
  .uint 6 1 5 false,
  .nextExist false 7 1 2 false,
  .uint 8 1 3 false,
  .uint 9 1 5 false,
  .nextExist false 10 1 1 false,
  .uint 11 1 5 false,
  .nextExist false 12 1 1 false,
  .typ 13 false t_HCS,
  .nextExist false 15 1 1 false,
  .uint 16 1 2 false,
  .nextExist false 17 1 1 false,
  .uint 18 1 2 false]

/-- `COMPACT_Neighbour_Cell_Param_Remaining_t` (`csn1_ts_44_060.c:4114-4117`). -/
def t_COMPACT_Neighbour_Cell_Param_Remaining : List Csn := [
  .varBmp 2 2 0 0,
  .typ 4 false t_COMPACT_Cell_Sel]

/-- `COMPACT_Neighbour_Cell_Param_t` (`csn1_ts_44_060.c:4135-4142`). -/
def t_COMPACT_Neighbour_Cell_Param : List Csn := [
  .uint 0 2 10 false,
  .typ 2 false t_COMPACT_Cell_Sel,
  .uint 21 1 4 false,
  .uintOfs 22 1 3 1,
  .cbCopy 22 24 24 408,
  .vtarr false 24 384 24 21 t_COMPACT_Neighbour_Cell_Param_Remaining]

/-- `COMPACT_Info_t` (`csn1_ts_44_060.c:4146-4149`). -/
def t_COMPACT_Info : List Csn := [
  .typ 0 false t_Cell_Identification,
  .recTArr 14 3264 408 8 12 t_COMPACT_Neighbour_Cell_Param]

/-- `PSI3_AdditionR4_t` (`csn1_ts_44_060.c:4153-4156`). -/
def t_PSI3_AdditionR4 : List Csn := [
  .nextExist false 0 1 1 false,
  .typ 1 false t_CCN_Support_Description]

/-- `PSI3_AdditionR99_t` (`csn1_ts_44_060.c:4160-4167`). -/
def t_PSI3_AdditionR99 : List Csn := [
  .fixed 2 0,
  .nextExist false 0 1 1 false,
  .typ 2 false t_COMPACT_Info,
  .fixed 1 0,
  .nextExist false 3280 1 1 false,
  .typ 3281 false t_PSI3_AdditionR4]

/-- `PSI3_AdditionR98_t` (`csn1_ts_44_060.c:4171-4179`). -/
def t_PSI3_AdditionR98 : List Csn := [
  .typ 0 false t_LSA_ID_Info,
  .nextExist false 33 1 1 false,
  .typ 34 false t_LSA_Parameters,
  .nextExist false 1091 1 1 false,
  .typ 1092 false t_PSI3_AdditionR99]

/-- `PSI3_t` (`csn1_ts_44_060.c:4183-4196`). -/
def t_PSI3 : List Csn := [
  .uint 0 1 6 false,
  .uint 1 1 2 false,
  .uint 2 1 2 false,
  .uint 3 1 4 false,
  .typ 4 false t_Serving_Cell_params,
  .typ 12 false t_Gen_Cell_Sel,
  .typ 20 false t_NeighbourCellList,
  .nextExist false 11542 1 1 false,
  .typ 11544 false t_PSI3_AdditionR98,
  .padding]

/-- `NC_Measurement_Parameters_t` (`csn1_ts_44_060.c:2073-2080`). -/
def t_NC_Measurement_Parameters : List Csn := [
  .uint 0 1 2 false,
  .nextExist false 1 1 3 false,
  .uint 2 1 3 false,
  .uint 3 1 3 false,
  .uint 4 1 3 false]

/-- `MeasurementParams_t` (`csn1_ts_44_060.c:4202-4226`). -/
def t_MeasurementParams : List Csn := [
  .nextExist false 0 1 1 false,
  .uint 1 1 2 false,
  .nextExist false 2 1 1 false,
  .uint 3 1 2 false,
  .nextExist false 4 1 1 false,
  .uint 5 1 2 false,
  .nextExist false 6 1 1 false,
  .typ 7 false t_OffsetThreshold,
  .nextExist false 9 1 1 false,
  .typ 10 false t_OffsetThreshold,
  .nextExist false 12 1 1 false,
  .typ 13 false t_OffsetThreshold,
  .nextExist false 15 1 1 false,
  .typ 16 false t_OffsetThreshold,
  .nextExist false 18 1 1 false,
  .typ 19 false t_OffsetThreshold]

/-- `GPRSMeasurementParams3G_PSI5_t` (`csn1_ts_44_060.c:4229-4244`). -/
def t_GPRSMeasurementParams3G_PSI5 : List Csn := [
  .nextExist false 0 1 2 false,
  .uint 1 1 1 false,
  .uint 2 1 2 false,
  .nextExist false 3 1 2 false,
  .uint 4 1 3 false,
  .uint 5 1 3 false,
  .nextExist false 6 1 1 false,
  .uint 7 1 2 false,
  .nextExist false 8 1 2 false,
  .uint 9 1 3 false,
  .uint 10 1 3 false]

/-- `ENH_Reporting_Parameters_t` (`csn1_ts_44_060.c:4247-4260`). -/
def t_ENH_Reporting_Parameters : List Csn := [
  .uint 0 1 1 false,
  .uint 1 1 1 false,
  .uint 2 1 1 false,
  .nextExist false 3 1 1 false,
  .uint 4 1 8 false,
  .nextExist false 8 4 1 false,
  .typ 12 false t_MeasurementParams,
  .nextExist false 36 4 1 false,
  .typ 40 false t_GPRSMeasurementParams3G_PSI5]

/-- `PSI5_AdditionsR7` (`csn1_ts_44_060.c:4263-4269`). -/
def t_PSI5_AdditionsR7 : List Csn := [
  .nextExist false 0 1 1 false,
  .typ 1 false t_OffsetThreshold,
  .nextExist false 3 1 1 false,
  .typ 4 false t_OffsetThreshold]

/-- `PSI5_AdditionsR5` (`csn1_ts_44_060.c:4272-4278`). -/
def t_PSI5_AdditionsR5 : List Csn := [
  .nextExist false 0 1 1 false,
  .typ 1 false t_GPRS_AdditionalMeasurementParams3G,
  .nextExist false 3 1 1 false,
  .typ 4 false t_PSI5_AdditionsR7]

/-- `PSI5_AdditionsR99` (`csn1_ts_44_060.c:4281-4287`). -/
def t_PSI5_AdditionsR99 : List Csn := [
  .nextExist false 0 1 1 false,
  .typ 4 false t_ENH_Reporting_Parameters,
  .nextExist false 56 1 1 false,
  .typ 57 false t_PSI5_AdditionsR5]

/-- `PSI5_t` (`csn1_ts_44_060.c:4290-4306`). -/
def t_PSI5 : List Csn := [
  .uint 0 1 6 false,
  .uint 1 1 2 false,
  .uint 2 1 2 false,
  .uint 3 1 3 false,
  .uint 4 1 3 false,
  .nextExist false 5 1 1 false,
  .typ 6 false t_NC_Measurement_Parameters,
  .fixed 1 0,
  .nextExist false 11 1 1 false,
  .typ 12 false t_PSI5_AdditionsR99,
  .padding]

/-- `GPRS_Power_Control_Parameters_t` (`csn1_ts_44_060.c:100-106`). -/
def t_GPRS_Power_Control_Parameters : List Csn := [
  .uint 0 1 4 false,
  .uint 1 1 5 false,
  .uint 2 1 5 false,
  .uint 3 1 1 false,
  .uint 4 1 4 false]

/-- `PBCCH_Not_present_t` (`csn1_ts_44_060.c:280-287`). -/
def t_PBCCH_Not_present : List Csn := [
  .uint 0 1 8 false,
  .uint 1 1 1 false,
  .uint 2 1 3 false,
  .uint 3 1 2 false,
  .typ 4 false t_GPRS_Cell_Options,
  .typ 25 false t_GPRS_Power_Control_Parameters]

/-- Selectors of `SI13_PBCCH_Description_Channel` (`csn1_ts_44_060.c:290-295`). -/
def s_SI13_PBCCH_Description_Channel : List (Nat × Nat) := [(2, 0), (2, 1), (1, 1)]

/-- Alternatives of `SI13_PBCCH_Description_Channel`. -/
def c_SI13_PBCCH_Description_Channel : List Csn := [
  .null 0,
  .uint 4 2 10 false,
  .uint 4 1 6 false]

/-- `PBCCH_Description_t` (`csn1_ts_44_060.c:298-304`). -/
def t_PBCCH_Description : List Csn := [
  .uint 0 1 4 false,
  .uint 1 1 3 false,
  .uint 2 1 3 false,
  .choice 3 1 s_SI13_PBCCH_Description_Channel c_SI13_PBCCH_Description_Channel]

/-- `PBCCH_present_t` (`csn1_ts_44_060.c:307-310`). -/
def t_PBCCH_present : List Csn := [
  .uint 0 1 4 false,
  .typ 2 false t_PBCCH_Description]

/-- `PSI13_AdditionsR6` (`csn1_ts_44_060.c:4312-4316`). -/
def t_PSI13_AdditionsR6 : List Csn := [
  .nextExist false 0 1 1 false,
  .uint 1 1 5 false,
  .uint 2 1 2 false]

/-- `PSI13_AdditionsR4` (`csn1_ts_44_060.c:4319-4323`). -/
def t_PSI13_AdditionsR4 : List Csn := [
  .uint 0 1 1 false,
  .nextExist false 1 1 1 false,
  .typ 2 false t_PSI13_AdditionsR6]

/-- `PSI13_AdditionR99` (`csn1_ts_44_060.c:4326-4330`). -/
def t_PSI13_AdditionR99 : List Csn := [
  .uint 0 1 1 false,
  .nextExist false 4 4 1 false,
  .typ 8 false t_PSI13_AdditionsR4]

/-- `PSI13_t` (`csn1_ts_44_060.c:4333-4351`). -/
def t_PSI13 : List Csn := [
  .uint 1 1 6 false,
  .uint 2 1 2 false,
  .uint 3 1 3 false,
  .uint 4 1 4 false,
  .nextExist false 5 1 2 false,
  .uint 6 1 2 false,
  .typ 7 false t_GPRS_Mobile_Allocation,
  .union false 31 1 2,
  .typ 32 false t_PBCCH_Not_present,
  .typ 32 false t_PBCCH_present,
  .nextExist false 64 4 1 false,
  .typ 68 false t_PSI13_AdditionR99,
  .padding]

/-- `IA_AdditionsR13_t` (`csn1_ts_44_018.c:339-344`). -/
def t_IA_AdditionsR13 : List Csn := [
  .nextExist true 0 4 3 false,
  .uint 4 1 1 false,
  .uint 5 1 2 false,
  .uint 6 1 3 false]

/-- `IA_RestOctetsLL_t` (`csn1_ts_44_018.c:347-350`). -/
def t_IA_RestOctetsLL : List Csn := [
  .uintLh 0 1 1,
  .typ 4 true t_IA_AdditionsR13]

/-- `EGPRS_TwoPhaseAccess_t` (`csn1_ts_44_018.c:154-166`). -/
def t_EGPRS_TwoPhaseAccess : List Csn := [
  .nextExist false 0 4 1 false,
  .uint 4 1 4 false,
  .uint 5 1 5 false,
  .typ 6 false t_StartingTime,
  .uint 9 1 2 false,
  .nextExist false 12 4 3 false,
  .uint 16 1 4 false,
  .uint 17 1 1 false,
  .uint 18 1 1 false]

/-- `DynamicAllocation_t` (`csn1_ts_44_018.c:144-151`). -/
def t_DynamicAllocation : List Csn := [
  .uint 0 1 3 false,
  .uint 1 1 1 false,
  .nextExist false 2 1 2 false,
  .uint 3 1 4 false,
  .uint 4 1 1 false]

/-- `EGPRS_OnePhaseAccess_t` (`csn1_ts_44_018.c:169-196`). -/
def t_EGPRS_OnePhaseAccess : List Csn := [
  .uint 0 1 5 false,
  .uint 1 1 1 false,
  .union false 2 1 2,
  .typ 3 false t_DynamicAllocation,
  .trap (-8),
  .uint 8 1 4 false,
  .uint 9 1 1 false,
  .nextExist false 12 4 1 false,
  .uint 16 1 4 false,
  .uint 17 1 1 false,
  .uint 18 1 5 false,
  .nextExist false 20 4 1 false,
  .uint 24 1 4 false,
  .uint 25 1 5 false,
  .nextExist false 28 4 1 false,
  .uint 32 1 4 false,
  .nextExist false 36 4 1 false,
  .typ 40 false t_StartingTime]

/-- `IA_EGPRS_PktUlAss_t` (`csn1_ts_44_018.c:200-208`). -/
def t_IA_EGPRS_PktUlAss : List Csn := [
  .uint 0 1 5 false,
  .recArr 2 12 1 4,
  .union false 14 1 2,
  .typ 16 false t_EGPRS_TwoPhaseAccess,
  .typ 16 false t_EGPRS_OnePhaseAccess]

/-- `IA_MultiBlock_PktDlAss_t` (`csn1_ts_44_018.c:212-223`). -/
def t_IA_MultiBlock_PktDlAss : List Csn := [
  .typ 0 false t_StartingTime,
  .uint 3 1 4 false,
  .fixed 1 0]

/-- `IA_RestOctetsLH0x_t` (`csn1_ts_44_018.c:353-357`). -/
def t_IA_RestOctetsLH0x : List Csn := [
  .union false 0 1 2,
  .typ 4 false t_IA_EGPRS_PktUlAss,
  .typ 4 false t_IA_MultiBlock_PktDlAss]

/-- `IA_RestOctetsLH_t` (`csn1_ts_44_018.c:360-366`). -/
def t_IA_RestOctetsLH : List Csn := [
  .union false 0 1 2,
  .typ 4 false t_IA_RestOctetsLH0x,
  .trap (-8),
  .typ 68 true t_IA_AdditionsR13]

/-- `IA_FreqParamsBeforeTime_t` (`csn1_ts_44_018.c:226-230`). -/
def t_IA_FreqParamsBeforeTime : List Csn := [
  .uint 0 1 6 false,
  .uint 1 1 6 false,
  .varArr 2 62 0 8]

/-- `IA_RestOctetsHL_t` (`csn1_ts_44_018.c:369-373`). -/
def t_IA_RestOctetsHL : List Csn := [
  .typ 0 false t_IA_FreqParamsBeforeTime,
  .uintLh 64 1 1,
  .typ 68 true t_IA_AdditionsR13]

/-- `GPRS_SingleBlockAllocation_t` (`csn1_ts_44_018.c:233-245`). -/
def t_GPRS_SingleBlockAllocation : List Csn := [
  .nextExist false 0 4 1 false,
  .uint 4 1 4 false,
  .uint 5 1 5 false,
  .fixed 2 1,
  .typ 7 false t_StartingTime,
  .nextExist true 12 4 3 false,
  .uint 16 1 4 false,
  .uint 17 1 1 false,
  .uint 18 1 1 false]

/-- `GPRS_DynamicOrFixedAllocation_t` (`csn1_ts_44_018.c:248-269`). -/
def t_GPRS_DynamicOrFixedAllocation : List Csn := [
  .uint 0 1 5 false,
  .uint 1 1 1 false,
  .union false 2 1 2,
  .typ 3 false t_DynamicAllocation,
  .trap (-8),
  .uint 8 1 2 false,
  .uint 9 1 1 false,
  .nextExist false 10 1 1 false,
  .uint 11 1 4 false,
  .uint 12 1 5 false,
  .nextExist false 13 1 1 false,
  .uint 14 1 4 false,
  .nextExist false 15 1 1 false,
  .typ 16 false t_StartingTime]

/-- `PU_IA_AdditionsR99_t` (`csn1_ts_44_018.c:272-275`). -/
def t_PU_IA_AdditionsR99 : List Csn := [
  .nextExist false 0 4 1 false,
  .uint 4 1 5 false]

/-- `Packet_Uplink_ImmAssignment_t` (`csn1_ts_44_018.c:278-285`). -/
def t_Packet_Uplink_ImmAssignment : List Csn := [
  .union false 0 1 2,
  .typ 4 false t_GPRS_SingleBlockAllocation,
  .typ 4 false t_GPRS_DynamicOrFixedAllocation,
  .nextExist true 24 4 1 true,
  .typ 28 false t_PU_IA_AdditionsR99]

/-- `PD_IA_AdditionsR99_t` (`csn1_ts_44_018.c:288-294`). -/
def t_PD_IA_AdditionsR99 : List Csn := [
  .uint 0 1 5 false,
  .uint 1 1 2 false,
  .nextExist false 4 4 1 false,
  .uint 8 1 4 false]

/-- `Packet_Downlink_ImmAssignment_t` (`csn1_ts_44_018.c:297-322`). -/
def t_Packet_Downlink_ImmAssignment : List Csn := [
  .uint 0 4 32 false,
  .nextExist false 4 1 7 false,
  .uint 5 1 5 false,
  .uint 6 1 1 false,
  .nextExist false 7 1 1 false,
  .uint 8 1 4 false,
  .uint 9 1 5 false,
  .uint 10 1 1 false,
  .uint 11 1 1 false,
  .nextExist false 12 1 1 false,
  .uint 13 1 4 false,
  .nextExist false 14 1 1 false,
  .typ 15 false t_StartingTime,
  .nextExist false 18 1 3 false,
  .uint 19 1 4 false,
  .uint 20 1 1 false,
  .uint 21 1 1 false,
  .nextExist true 24 4 1 true,
  .typ 28 false t_PD_IA_AdditionsR99]

/-- `IA_PacketAssignment_UL_DL_t` (`csn1_ts_44_018.c:332-336`). -/
def t_IA_PacketAssignment_UL_DL : List Csn := [
  .union false 0 1 2,
  .typ 4 false t_Packet_Uplink_ImmAssignment,
  .typ 4 false t_Packet_Downlink_ImmAssignment]

/-- `Second_Part_Packet_Assignment_t` (`csn1_ts_44_018.c:325-329`). -/
def t_Second_Part_Packet_Assignment : List Csn := [
  .nextExist true 0 4 2 true,
  .nextExist false 4 4 1 false,
  .uint 8 1 5 false]

/-- `IA_RestOctetsHH_t` (`csn1_ts_44_018.c:376-388`). -/
def t_IA_RestOctetsHH : List Csn := [
  .union false 0 1 2,
  .typ 4 false t_IA_PacketAssignment_UL_DL,
  .typ 4 false t_Second_Part_Packet_Assignment,
  .nextExist true 48 4 2 true,
  .uint 52 1 1 false,
  .uint 53 1 1 false,
  .nextExist true 56 4 2 true,
  .uint 60 1 2 false,
  .uint 61 1 3 false]

/-- `IA_RestOctets_t` (`csn1_ts_44_018.c:392-401`). -/
def t_IA_RestOctets : List Csn := [
  .union true 0 1 4,
  .typ 4 false t_IA_RestOctetsLL,
  .typ 4 false t_IA_RestOctetsLH,
  .typ 4 false t_IA_RestOctetsHL,
  .typ 4 false t_IA_RestOctetsHH,
  .padding]

/-- `SI13_AdditionsR6` (`csn1_ts_44_018.c:404-408`). -/
def t_SI13_AdditionsR6 : List Csn := [
  .nextExist false 0 1 1 false,
  .uint 1 1 5 false,
  .uint 2 1 2 false]

/-- `SI13_AdditionsR4` (`csn1_ts_44_018.c:411-415`). -/
def t_SI13_AdditionsR4 : List Csn := [
  .uint 0 1 1 false,
  .nextExist true 1 1 1 true,
  .typ 2 false t_SI13_AdditionsR6]

/-- `SI13_AdditionR99` (`csn1_ts_44_018.c:418-422`). -/
def t_SI13_AdditionR99 : List Csn := [
  .uint 0 1 1 false,
  .nextExist true 4 4 1 true,
  .typ 8 false t_SI13_AdditionsR4]

/-- `SI13_RestOctets_t` (`csn1_ts_44_018.c:425-442`). -/
def t_SI13_RestOctets : List Csn := [
  .exist true 0 1,
  .uint 3 1 3 false,
  .uint 4 1 4 false,
  .nextExist false 5 1 2 false,
  .uint 6 1 2 false,
  .typ 7 false t_GPRS_Mobile_Allocation,
  .union false 31 1 2,
  .typ 32 false t_PBCCH_Not_present,
  .typ 32 false t_PBCCH_present,
  .nextExist true 64 4 1 true,
  .typ 68 false t_SI13_AdditionR99,
  .padding]

/-- `Group_Call_Reference_t` (`csn1_ts_44_018.c:83-89`). -/
def t_Group_Call_Reference : List Csn := [
  .uint 0 4 27 false,
  .uint 4 1 1 false,
  .uint 5 1 1 false,
  .uint 6 1 3 false,
  .uint 7 1 4 false]

/-- `SingleRFChannel_t` (`csn1_ts_44_018.c:45-48`). -/
def t_SingleRFChannel : List Csn := [
  .uint 0 1 2 false,
  .uint 2 2 10 false]

/-- `RFHoppingChannel_t` (`csn1_ts_44_018.c:51-54`). -/
def t_RFHoppingChannel : List Csn := [
  .uint 0 1 6 false,
  .uint 1 1 6 false]

/-- `Channel_Description_t` (`csn1_ts_44_018.c:64-72`). -/
def t_Channel_Description : List Csn := [
  .uint 0 1 5 false,
  .uint 1 1 3 false,
  .uint 2 1 3 false,
  .union false 3 1 2,
  .typ 4 false t_SingleRFChannel,
  .typ 4 false t_RFHoppingChannel]

/-- `MobileAllocationIE_t` (`csn1_ts_44_018.c:39-42`). -/
def t_MobileAllocationIE : List Csn := [
  .uint 0 1 8 false,
  .varArr 1 8 0 0]

/-- `MobileAllocation_or_Frequency_Short_List_t` (`csn1_ts_44_018.c:57-61`). -/
def t_MobileAllocation_or_Frequency_Short_List : List Csn := [
  .union false 0 1 2,
  .bitmap 1 8 64,
  .typ 1 false t_MobileAllocationIE]

/-- `Group_Channel_Description_t` (`csn1_ts_44_018.c:75-80`). -/
def t_Group_Channel_Description : List Csn := [
  .typ 0 false t_Channel_Description,
  .nextExist false 8 1 1 false,
  .typ 9 false t_MobileAllocation_or_Frequency_Short_List]

/-- `Group_Call_information_t` (`csn1_ts_44_018.c:92-97`). -/
def t_Group_Call_information : List Csn := [
  .typ 0 false t_Group_Call_Reference,
  .nextExist false 8 1 1 false,
  .typ 10 false t_Group_Channel_Description]

/-- `P1_Rest_Octets_t` (`csn1_ts_44_018.c:100-118`). -/
def t_P1_Rest_Octets : List Csn := [
  .nextExist true 0 1 2 false,
  .uint 1 1 2 false,
  .uint 2 1 1 false,
  .nextExist true 3 1 1 false,
  .uint 4 1 3 false,
  .nextExist true 5 1 1 false,
  .uint 6 1 3 false,
  .nextExist true 7 1 1 false,
  .typ 8 false t_Group_Call_information,
  .uintLh 40 1 1,
  .uintLh 41 1 1,
  .padding]

/-- `P2_Rest_Octets_t` (`csn1_ts_44_018.c:121-141`). -/
def t_P2_Rest_Octets : List Csn := [
  .nextExist true 0 1 1 false,
  .uint 1 1 2 false,
  .nextExist true 2 1 2 false,
  .uint 3 1 2 false,
  .uint 4 1 1 false,
  .nextExist true 5 1 1 false,
  .uint 6 1 3 false,
  .nextExist true 7 1 1 false,
  .uint 8 1 3 false,
  .nextExist true 9 1 1 false,
  .uint 10 1 3 false,
  .uintLh 11 1 1,
  .padding]

/-- `MS_Radio_Access_capability_t` (`csn1_ts_24_008.c:344-347`). -/
def t_MS_Radio_Access_capability : List Csn := [
  .recTArr1 1 759 69 11 0 t_MS_RA_capability_value,
  .padding]

/-- `PacketChannelRequest_MC5P2RB3_t` (`csn1_ts_44_060.c:4356-4360`). -/
def t_PacketChannelRequest_MC5P2RB3 : List Csn := [
  .uint 1 1 5 false,
  .uint 3 1 2 false,
  .uint 4 1 3 false]

/-- `PacketChannelRequest_NOB3P2RB3_t` (`csn1_ts_44_060.c:4370-4374`). -/
def t_PacketChannelRequest_NOB3P2RB3 : List Csn := [
  .uint 2 1 3 false,
  .uint 3 1 2 false,
  .uint 4 1 3 false]

/-- `PacketChannelRequest_MCG3P2RB3_t` (`csn1_ts_44_060.c:4363-4367`). -/
def t_PacketChannelRequest_MCG3P2RB3 : List Csn := [
  .uint 0 1 3 false,
  .uint 3 1 2 false,
  .uint 4 1 3 false]

/-- `PacketChannelRequest_P2RB3_t` (`csn1_ts_44_060.c:4377-4380`). -/
def t_PacketChannelRequest_P2RB3 : List Csn := [
  .uint 3 1 2 false,
  .uint 4 1 3 false]

/-- `PacketChannelRequest_RB5_t` (`csn1_ts_44_060.c:4383-4385`). -/
def t_PacketChannelRequest_RB5 : List Csn := [
  .uint 4 1 5 false]

/-- Selectors of `EGPRS_PacketChannelRequest_Choice` (`csn1_ts_44_060.c:4388-4400`). -/
def s_EGPRS_PacketChannelRequest_Choice : List (Nat × Nat) := [(1, 0), (3, 4), (3, 5), (6, 48), (6, 51), (6, 53), (6, 54), (6, 55), (6, 56), (6, 57)]

/-- Alternatives of `EGPRS_PacketChannelRequest_Choice`. -/
def c_EGPRS_PacketChannelRequest_Choice : List Csn := [
  .typ 1 false t_PacketChannelRequest_MC5P2RB3,
  .typ 1 false t_PacketChannelRequest_NOB3P2RB3,
  .typ 1 false t_PacketChannelRequest_MCG3P2RB3,
  .typ 1 false t_PacketChannelRequest_P2RB3,
  .typ 1 false t_PacketChannelRequest_RB5,
  .typ 1 false t_PacketChannelRequest_RB5,
  .typ 1 false t_PacketChannelRequest_RB5,
  .typ 1 false t_PacketChannelRequest_RB5,
  .typ 1 false t_PacketChannelRequest_P2RB3,
  .typ 1 false t_PacketChannelRequest_RB5]

/-- `EGPRS_PacketChannelRequest_t` (`csn1_ts_44_060.c:4403-4406`). -/
def t_EGPRS_PacketChannelRequest : List Csn := [
  .choice 0 1 s_EGPRS_PacketChannelRequest_Choice c_EGPRS_PacketChannelRequest_Choice]

/-- Table for each uplink message type (`csn1_ts_44_060.c:4441-4524`). -/
def ulTable (mt : Nat) : Option (List Csn) :=
  if mt = 0 then some t_Packet_Cell_Change_Failure else
  if mt = 1 then some t_Packet_Control_Acknowledgement else
  if mt = 2 then some t_Packet_Downlink_Ack_Nack else
  if mt = 3 then some t_Packet_Uplink_Dummy_Control_Block else
  if mt = 4 then some t_Packet_Measurement_Report else
  if mt = 5 then some t_Packet_Resource_Request else
  if mt = 6 then some t_Packet_Mobile_TBF_Status else
  if mt = 7 then some t_Packet_PSI_Status else
  if mt = 8 then some t_EGPRS_PD_AckNack else
  if mt = 9 then some t_Packet_Pause else
  if mt = 10 then some t_Packet_Enh_Measurement_Report else
  if mt = 11 then some t_Additional_MS_Rad_Access_Cap else
  if mt = 12 then some t_Packet_Cell_Change_Notification else
  if mt = 13 then some t_Packet_SI_Status else
  none

/-- Table for each downlink message type (`csn1_ts_44_060.c:4605-4736`). -/
def dlTable (mt : Nat) : Option (List Csn) :=
  if mt = 33 then some t_Packet_Access_Reject else
  if mt = 1 then some t_Packet_Cell_Change_Order else
  if mt = 11 then some t_Packet_Cell_Change_Continue else
  if mt = 2 then some t_Packet_Downlink_Assignment else
  if mt = 3 then some t_Packet_Measurement_Order else
  if mt = 12 then some t_Packet_Neighbour_Cell_Data else
  if mt = 13 then some t_Packet_Serving_Cell_Data else
  if mt = 34 then some t_Packet_Paging_Request else
  if mt = 35 then some t_Packet_PDCH_Release else
  if mt = 4 then some t_Packet_Polling_Request else
  if mt = 5 then some t_Packet_Power_Control_Timing_Advance else
  if mt = 36 then some t_Packet_PRACH_Parameters else
  if mt = 6 then some t_Packet_Queueing_Notification else
  if mt = 7 then some t_Packet_Timeslot_Reconfigure else
  if mt = 8 then some t_Packet_TBF_Release else
  if mt = 9 then some t_Packet_Uplink_Ack_Nack else
  if mt = 10 then some t_Packet_Uplink_Assignment else
  if mt = 21 then some t_Packet_Handover_Command else
  if mt = 22 then some t_Packet_PhysicalInformation else
  if mt = 37 then some t_Packet_Downlink_Dummy_Control_Block else
  if mt = 49 then some t_PSI1 else
  if mt = 50 then some t_PSI2 else
  if mt = 51 then some t_PSI3 else
  if mt = 54 then some t_PSI5 else
  if mt = 55 then some t_PSI13 else
  none

end Verif.Csn1
