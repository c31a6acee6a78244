import Verif.SchemaData

/-! GENERATED by `/verif/tools/gen_facets.py` from `/repo/ccsds_ndm/models/ndmxml2/*.py`; do not edit.

What the schema requires: the fields with `metadata["required"]` (one) or `metadata["min_occurs"]`, in field order. -/

namespace Ndm

/-- The fields that must be there, and how often at least. -/
def Cls.least : Cls → List (Str × Nat)
  -- ndmxml2/ndmxml_2_0_0_common_2_0.py:110-140
  | .NdmHeader => [(py "creation_date", 1), (py "originator", 1)]
  -- ndmxml2/ndmxml_2_0_0_common_2_0.py:159-188
  | .OemCovarianceMatrixAbstractType => [(py "epoch", 1)]
  -- ndmxml2/ndmxml_2_0_0_common_2_0.py:235-282
  | .QuaternionType => [(py "qc", 1), (py "q1", 1), (py "q2", 1), (py "q3", 1)]
  -- ndmxml2/ndmxml_2_0_0_common_2_0.py:340-353
  | .UserDefinedParameterType => [(py "parameter", 1)]
  -- ndmxml2/ndmxml_2_0_0_common_2_0.py:482-498
  | .DayIntervalType => [(py "units", 1)]
  -- ndmxml2/ndmxml_2_0_0_common_2_0.py:663-680
  | .LatType => [(py "units", 1)]
  -- ndmxml2/ndmxml_2_0_0_common_2_0.py:684-697
  | .LengthType => [(py "units", 1)]
  -- ndmxml2/ndmxml_2_0_0_common_2_0.py:701-718
  | .LonType => [(py "units", 1)]
  -- ndmxml2/ndmxml_2_0_0_common_2_0.py:757-770
  | .Ms2Type => [(py "units", 1)]
  -- ndmxml2/ndmxml_2_0_0_common_2_0.py:774-791
  | .PercentageType => [(py "units", 1)]
  -- ndmxml2/ndmxml_2_0_0_common_2_0.py:859-872
  | .RdmPositionType => [(py "units", 1)]
  -- ndmxml2/ndmxml_2_0_0_common_2_0.py:876-889
  | .RdmVelocityType => [(py "units", 1)]
  -- ndmxml2/ndmxml_2_0_0_common_2_0.py:893-916
  | .RotationAngleComponentType => [(py "angle", 1)]
  -- ndmxml2/ndmxml_2_0_0_common_2_0.py:920-945
  | .RotationAngleComponentTypeold => [(py "angle", 1), (py "value", 1)]
  -- ndmxml2/ndmxml_2_0_0_common_2_0.py:949-968
  | .RotationRateComponentType => [(py "rate", 1)]
  -- ndmxml2/ndmxml_2_0_0_common_2_0.py:972-995
  | .RotationRateComponentTypeOld => [(py "rate", 1), (py "value", 1)]
  -- ndmxml2/ndmxml_2_0_0_common_2_0.py:1056-1136
  | .AtmosphericReentryParametersType => [(py "orbit_lifetime", 1), (py "reentry_altitude", 1)]
  -- ndmxml2/ndmxml_2_0_0_common_2_0.py:1506-1698 (inherits OemCovarianceMatrixAbstractType)
  | .OemCovarianceMatrixType => [(py "epoch", 1), (py "cx_x", 1), (py "cy_x", 1), (py "cy_y", 1), (py "cz_x", 1), (py "cz_y", 1), (py "cz_z", 1), (py "cx_dot_x", 1), (py "cx_dot_y", 1), (py "cx_dot_z", 1), (py "cx_dot_x_dot", 1), (py "cy_dot_x", 1), (py "cy_dot_y", 1), (py "cy_dot_z", 1), (py "cy_dot_x_dot", 1), (py "cy_dot_y_dot", 1), (py "cz_dot_x", 1), (py "cz_dot_y", 1), (py "cz_dot_z", 1), (py "cz_dot_x_dot", 1), (py "cz_dot_y_dot", 1), (py "cz_dot_z_dot", 1)]
  -- ndmxml2/ndmxml_2_0_0_common_2_0.py:1702-1894 (inherits OpmCovarianceMatrixAbstractType)
  | .OpmCovarianceMatrixType => [(py "cx_x", 1), (py "cy_x", 1), (py "cy_y", 1), (py "cz_x", 1), (py "cz_y", 1), (py "cz_z", 1), (py "cx_dot_x", 1), (py "cx_dot_y", 1), (py "cx_dot_z", 1), (py "cx_dot_x_dot", 1), (py "cy_dot_x", 1), (py "cy_dot_y", 1), (py "cy_dot_z", 1), (py "cy_dot_x_dot", 1), (py "cy_dot_y_dot", 1), (py "cz_dot_x", 1), (py "cz_dot_y", 1), (py "cz_dot_z", 1), (py "cz_dot_x_dot", 1), (py "cz_dot_y_dot", 1), (py "cz_dot_z_dot", 1)]
  -- ndmxml2/ndmxml_2_0_0_common_2_0.py:1898-1937
  | .QuaternionRateType => [(py "qc_dot", 1), (py "q1_dot", 1), (py "q2_dot", 1), (py "q3_dot", 1)]
  -- ndmxml2/ndmxml_2_0_0_common_2_0.py:2038-2065
  | .RotationAngleType => [(py "rotation1", 1), (py "rotation2", 1), (py "rotation3", 1)]
  -- ndmxml2/ndmxml_2_0_0_common_2_0.py:2069-2096
  | .RotationRateType => [(py "rotation1", 1), (py "rotation2", 1), (py "rotation3", 1)]
  -- ndmxml2/ndmxml_2_0_0_common_2_0.py:2100-2158
  | .SpacecraftParametersType => [(py "mass", 1), (py "solar_rad_area", 1), (py "solar_rad_coeff", 1), (py "drag_area", 1), (py "drag_coeff", 1)]
  -- ndmxml2/ndmxml_2_0_0_common_2_0.py:2162-2253
  | .StateVectorAccType => [(py "epoch", 1), (py "x", 1), (py "y", 1), (py "z", 1), (py "x_dot", 1), (py "y_dot", 1), (py "z_dot", 1)]
  -- ndmxml2/ndmxml_2_0_0_common_2_0.py:2257-2332
  | .StateVectorType => [(py "epoch", 1), (py "x", 1), (py "y", 1), (py "z", 1), (py "x_dot", 1), (py "y_dot", 1), (py "z_dot", 1)]
  -- ndmxml2/ndmxml_2_0_0_aem_1_0.py:54-214
  | .AemMetadata => [(py "object_name", 1), (py "object_id", 1), (py "ref_frame_a", 1), (py "ref_frame_b", 1), (py "attitude_dir", 1), (py "time_system", 1), (py "start_time", 1), (py "stop_time", 1), (py "attitude_type", 1)]
  -- ndmxml2/ndmxml_2_0_0_aem_1_0.py:218-247
  | .EulerAngleRateType => [(py "epoch", 1)]
  -- ndmxml2/ndmxml_2_0_0_aem_1_0.py:251-272
  | .EulerAngleType => [(py "epoch", 1)]
  -- ndmxml2/ndmxml_2_0_0_aem_1_0.py:276-306
  | .QuaternionDerivativeType => [(py "epoch", 1), (py "quaternion", 1), (py "quaternion_rate", 1)]
  -- ndmxml2/ndmxml_2_0_0_aem_1_0.py:310-331
  | .QuaternionEphemerisType => [(py "epoch", 1), (py "quaternion", 1)]
  -- ndmxml2/ndmxml_2_0_0_aem_1_0.py:335-364
  | .QuaternionEulerRateType => [(py "epoch", 1), (py "quaternion", 1)]
  -- ndmxml2/ndmxml_2_0_0_aem_1_0.py:368-444
  | .SpinNutationType => [(py "epoch", 1), (py "spin_alpha", 1), (py "spin_delta", 1), (py "spin_angle", 1), (py "spin_angle_vel", 1), (py "nutation", 1), (py "nutation_per", 1), (py "nutation_phase", 1)]
  -- ndmxml2/ndmxml_2_0_0_aem_1_0.py:448-497
  | .SpinType => [(py "epoch", 1), (py "spin_alpha", 1), (py "spin_delta", 1), (py "spin_angle", 1), (py "spin_angle_vel", 1)]
  -- ndmxml2/ndmxml_2_0_0_aem_1_0.py:563-583
  | .AemData => [(py "attitude_state", 1)]
  -- ndmxml2/ndmxml_2_0_0_aem_1_0.py:587-606
  | .AemSegment => [(py "metadata", 1), (py "data", 1)]
  -- ndmxml2/ndmxml_2_0_0_aem_1_0.py:610-621
  | .AemBody => [(py "segment", 1)]
  -- ndmxml2/ndmxml_2_0_0_aem_1_0.py:625-660
  | .AemType => [(py "header", 1), (py "body", 1)]
  -- ndmxml2/ndmxml_2_0_0_apm_1_0.py:34-80
  | .ApmMetadata => [(py "object_name", 1), (py "object_id", 1), (py "time_system", 1)]
  -- ndmxml2/ndmxml_2_0_0_apm_1_0.py:84-157
  | .AttSpacecraftParametersType => [(py "i11", 1), (py "i22", 1), (py "i33", 1), (py "i12", 1), (py "i13", 1), (py "i23", 1)]
  -- ndmxml2/ndmxml_2_0_0_apm_1_0.py:161-254
  | .EulerElementsSpinType => [(py "spin_frame_a", 1), (py "spin_frame_b", 1)]
  -- ndmxml2/ndmxml_2_0_0_apm_1_0.py:329-393
  | .QuaternionStateType => [(py "epoch", 1), (py "q_frame_a", 1), (py "q_frame_b", 1), (py "q_dir", 1), (py "quaternion", 1)]
  -- ndmxml2/ndmxml_2_0_0_apm_1_0.py:413-479
  | .AttManeuverParametersType => [(py "man_epoch_start", 1), (py "man_duration", 1), (py "man_ref_frame", 1), (py "man_tor_1", 1), (py "man_tor_2", 1), (py "man_tor_3", 1)]
  -- ndmxml2/ndmxml_2_0_0_apm_1_0.py:483-535
  | .ApmData => [(py "quaternion_state", 1)]
  -- ndmxml2/ndmxml_2_0_0_apm_1_0.py:539-558
  | .ApmSegment => [(py "metadata", 1), (py "data", 1)]
  -- ndmxml2/ndmxml_2_0_0_apm_1_0.py:562-573
  | .ApmBody => [(py "segment", 1)]
  -- ndmxml2/ndmxml_2_0_0_apm_1_0.py:577-612
  | .ApmType => [(py "header", 1), (py "body", 1)]
  -- ndmxml2/ndmxml_2_0_0_cdm_1_0.py:22-69
  | .CdmHeader => [(py "creation_date", 1), (py "originator", 1), (py "message_id", 1)]
  -- ndmxml2/ndmxml_2_0_0_cdm_1_0.py:167-355
  | .CdmMetadata => [(py "object", 1), (py "object_designator", 1), (py "catalog_name", 1), (py "object_name", 1), (py "international_designator", 1), (py "ephemeris_name", 1), (py "covariance_method", 1), (py "maneuverable", 1), (py "ref_frame", 1)]
  -- ndmxml2/ndmxml_2_0_0_cdm_1_0.py:359-372
  | .CdmPositionType => [(py "units", 1)]
  -- ndmxml2/ndmxml_2_0_0_cdm_1_0.py:376-389
  | .CdmVelocityType => [(py "units", 1)]
  -- ndmxml2/ndmxml_2_0_0_cdm_1_0.py:393-406
  | .DvType => [(py "units", 1)]
  -- ndmxml2/ndmxml_2_0_0_cdm_1_0.py:410-423
  | .M2Type => [(py "units", 1)]
  -- ndmxml2/ndmxml_2_0_0_cdm_1_0.py:427-443
  | .M2KgType => [(py "units", 1)]
  -- ndmxml2/ndmxml_2_0_0_cdm_1_0.py:447-460
  | .M2S2Type => [(py "units", 1)]
  -- ndmxml2/ndmxml_2_0_0_cdm_1_0.py:464-477
  | .M2S3Type => [(py "units", 1)]
  -- ndmxml2/ndmxml_2_0_0_cdm_1_0.py:481-494
  | .M2S4Type => [(py "units", 1)]
  -- ndmxml2/ndmxml_2_0_0_cdm_1_0.py:498-511
  | .M2SType => [(py "units", 1)]
  -- ndmxml2/ndmxml_2_0_0_cdm_1_0.py:515-528
  | .M3KgType => [(py "units", 1)]
  -- ndmxml2/ndmxml_2_0_0_cdm_1_0.py:532-545
  | .M3Kgs2Type => [(py "units", 1)]
  -- ndmxml2/ndmxml_2_0_0_cdm_1_0.py:549-562
  | .M3KgsType => [(py "units", 1)]
  -- ndmxml2/ndmxml_2_0_0_cdm_1_0.py:566-579
  | .M4Kg2Type => [(py "units", 1)]
  -- ndmxml2/ndmxml_2_0_0_cdm_1_0.py:583-599
  | .WkgType => [(py "units", 1)]
  -- ndmxml2/ndmxml_2_0_0_cdm_1_0.py:682-1074
  | .CdmCovarianceMatrixType => [(py "cr_r", 1), (py "ct_r", 1), (py "ct_t", 1), (py "cn_r", 1), (py "cn_t", 1), (py "cn_n", 1), (py "crdot_r", 1), (py "crdot_t", 1), (py "crdot_n", 1), (py "crdot_rdot", 1), (py "ctdot_r", 1), (py "ctdot_t", 1), (py "ctdot_n", 1), (py "ctdot_rdot", 1), (py "ctdot_tdot", 1), (py "cndot_r", 1), (py "cndot_t", 1), (py "cndot_n", 1), (py "cndot_rdot", 1), (py "cndot_tdot", 1), (py "cndot_ndot", 1)]
  -- ndmxml2/ndmxml_2_0_0_cdm_1_0.py:1078-1143
  | .CdmStateVectorType => [(py "x", 1), (py "y", 1), (py "z", 1), (py "x_dot", 1), (py "y_dot", 1), (py "z_dot", 1)]
  -- ndmxml2/ndmxml_2_0_0_cdm_1_0.py:1147-1204
  | .RelativeStateVectorType => [(py "relative_position_r", 1), (py "relative_position_t", 1), (py "relative_position_n", 1), (py "relative_velocity_r", 1), (py "relative_velocity_t", 1), (py "relative_velocity_n", 1)]
  -- ndmxml2/ndmxml_2_0_0_cdm_1_0.py:1208-1253
  | .CdmData => [(py "state_vector", 1), (py "covariance_matrix", 1)]
  -- ndmxml2/ndmxml_2_0_0_cdm_1_0.py:1257-1397
  | .RelativeMetadataData => [(py "tca", 1), (py "miss_distance", 1)]
  -- ndmxml2/ndmxml_2_0_0_cdm_1_0.py:1401-1420
  | .CdmSegment => [(py "metadata", 1), (py "data", 1)]
  -- ndmxml2/ndmxml_2_0_0_cdm_1_0.py:1424-1445
  | .CdmBody => [(py "relative_metadata_data", 1), (py "segment", 2)]
  -- ndmxml2/ndmxml_2_0_0_cdm_1_0.py:1449-1484
  | .CdmType => [(py "header", 1), (py "body", 1)]
  -- ndmxml2/ndmxml_2_0_0_oem_2_0.py:14-133
  | .OemMetadata => [(py "object_name", 1), (py "object_id", 1), (py "center_name", 1), (py "ref_frame", 1), (py "time_system", 1), (py "start_time", 1), (py "stop_time", 1)]
  -- ndmxml2/ndmxml_2_0_0_oem_2_0.py:137-165
  | .OemData => [(py "state_vector", 1)]
  -- ndmxml2/ndmxml_2_0_0_oem_2_0.py:169-188
  | .OemSegment => [(py "metadata", 1), (py "data", 1)]
  -- ndmxml2/ndmxml_2_0_0_oem_2_0.py:192-203
  | .OemBody => [(py "segment", 1)]
  -- ndmxml2/ndmxml_2_0_0_oem_2_0.py:207-242
  | .OemType => [(py "header", 1), (py "body", 1)]
  -- ndmxml2/ndmxml_2_0_0_omm_2_0.py:35-109
  | .OmmMetadata => [(py "object_name", 1), (py "object_id", 1), (py "center_name", 1), (py "ref_frame", 1), (py "time_system", 1), (py "mean_element_theory", 1)]
  -- ndmxml2/ndmxml_2_0_0_omm_2_0.py:182-273
  | .MeanElementsType => [(py "epoch", 1), (py "eccentricity", 1), (py "inclination", 1), (py "ra_of_asc_node", 1), (py "arg_of_pericenter", 1), (py "mean_anomaly", 1)]
  -- ndmxml2/ndmxml_2_0_0_omm_2_0.py:277-360
  | .TleParametersType => [(py "norad_cat_id", 1), (py "element_set_no", 1), (py "rev_at_epoch", 1), (py "bstar", 1), (py "mean_motion_dot", 1), (py "mean_motion_ddot", 1)]
  -- ndmxml2/ndmxml_2_0_0_omm_2_0.py:364-416
  | .OmmData => [(py "mean_elements", 1)]
  -- ndmxml2/ndmxml_2_0_0_omm_2_0.py:420-439
  | .OmmSegment => [(py "metadata", 1), (py "data", 1)]
  -- ndmxml2/ndmxml_2_0_0_omm_2_0.py:443-454
  | .OmmBody => [(py "segment", 1)]
  -- ndmxml2/ndmxml_2_0_0_omm_2_0.py:458-493
  | .OmmType => [(py "header", 1), (py "body", 1)]
  -- ndmxml2/ndmxml_2_0_0_opm_2_0.py:24-89
  | .OpmMetadata => [(py "object_name", 1), (py "object_id", 1), (py "center_name", 1), (py "ref_frame", 1), (py "time_system", 1)]
  -- ndmxml2/ndmxml_2_0_0_opm_2_0.py:93-175
  | .KeplerianElementsType => [(py "semi_major_axis", 1), (py "eccentricity", 1), (py "inclination", 1), (py "ra_of_asc_node", 1), (py "arg_of_pericenter", 1), (py "gm", 1)]
  -- ndmxml2/ndmxml_2_0_0_opm_2_0.py:179-254
  | .ManeuverParametersType => [(py "man_epoch_ignition", 1), (py "man_duration", 1), (py "man_delta_mass", 1), (py "man_ref_frame", 1), (py "man_dv_1", 1), (py "man_dv_2", 1), (py "man_dv_3", 1)]
  -- ndmxml2/ndmxml_2_0_0_opm_2_0.py:258-318
  | .OpmData => [(py "state_vector", 1)]
  -- ndmxml2/ndmxml_2_0_0_opm_2_0.py:322-341
  | .OpmSegment => [(py "metadata", 1), (py "data", 1)]
  -- ndmxml2/ndmxml_2_0_0_opm_2_0.py:345-356
  | .OpmBody => [(py "segment", 1)]
  -- ndmxml2/ndmxml_2_0_0_opm_2_0.py:360-395
  | .OpmType => [(py "header", 1), (py "body", 1)]
  -- ndmxml2/ndmxml_2_0_0_rdm_1_0.py:25-64
  | .RdmHeader => [(py "creation_date", 1), (py "originator", 1), (py "message_id", 1)]
  -- ndmxml2/ndmxml_2_0_0_rdm_1_0.py:68-136
  | .RdmData => [(py "atmospheric_reentry_parameters", 1)]
  -- ndmxml2/ndmxml_2_0_0_rdm_1_0.py:140-393
  | .RdmMetadata => [(py "object_name", 1), (py "international_designator", 1), (py "controlled_reentry", 1), (py "center_name", 1), (py "time_system", 1), (py "epoch_tzero", 1)]
  -- ndmxml2/ndmxml_2_0_0_rdm_1_0.py:397-416
  | .RdmSegment => [(py "metadata", 1), (py "data", 1)]
  -- ndmxml2/ndmxml_2_0_0_rdm_1_0.py:420-431
  | .RdmBody => [(py "segment", 1)]
  -- ndmxml2/ndmxml_2_0_0_rdm_1_0.py:435-470
  | .RdmType => [(py "header", 1), (py "body", 1)]
  -- ndmxml2/ndmxml_2_0_0_tdm_2_0.py:85-123
  | .TdmHeader => [(py "creation_date", 1), (py "originator", 1)]
  -- ndmxml2/ndmxml_2_0_0_tdm_2_0.py:134-637
  | .TdmMetadata => [(py "time_system", 1), (py "participant_1", 1)]
  -- ndmxml2/ndmxml_2_0_0_tdm_2_0.py:641-1040
  | .TrackingDataObservationType => [(py "epoch", 1)]
  -- ndmxml2/ndmxml_2_0_0_tdm_2_0.py:1044-1063
  | .TdmData => [(py "observation", 1)]
  -- ndmxml2/ndmxml_2_0_0_tdm_2_0.py:1067-1086
  | .TdmSegment => [(py "metadata", 1), (py "data", 1)]
  -- ndmxml2/ndmxml_2_0_0_tdm_2_0.py:1090-1101
  | .TdmBody => [(py "segment", 1)]
  -- ndmxml2/ndmxml_2_0_0_tdm_2_0.py:1105-1140
  | .TdmType => [(py "header", 1), (py "body", 1)]
  -- ndmxml2/ndmxml_2_0_0_master_2_0.py:15-17 (inherits AemType)
  | .Aem => [(py "header", 1), (py "body", 1)]
  -- ndmxml2/ndmxml_2_0_0_master_2_0.py:21-23 (inherits ApmType)
  | .Apm => [(py "header", 1), (py "body", 1)]
  -- ndmxml2/ndmxml_2_0_0_master_2_0.py:27-29 (inherits CdmType)
  | .Cdm => [(py "header", 1), (py "body", 1)]
  -- ndmxml2/ndmxml_2_0_0_master_2_0.py:39-41 (inherits OemType)
  | .Oem => [(py "header", 1), (py "body", 1)]
  -- ndmxml2/ndmxml_2_0_0_master_2_0.py:45-47 (inherits OmmType)
  | .Omm => [(py "header", 1), (py "body", 1)]
  -- ndmxml2/ndmxml_2_0_0_master_2_0.py:51-53 (inherits OpmType)
  | .Opm => [(py "header", 1), (py "body", 1)]
  -- ndmxml2/ndmxml_2_0_0_master_2_0.py:57-59 (inherits RdmType)
  | .Rdm => [(py "header", 1), (py "body", 1)]
  -- ndmxml2/ndmxml_2_0_0_master_2_0.py:63-65 (inherits TdmType)
  | .Tdm => [(py "header", 1), (py "body", 1)]
  | _ => []

end Ndm
