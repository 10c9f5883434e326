/- Generated by netlist/v2lean.py from verilog_src/integration_3.v.  Do not edit. -/
import Verif.Netlist.I3Axis

set_option autoImplicit false
set_option linter.unusedVariables false

namespace Netlist.I3
open Netlist

namespace integration_1

/-- integration_3.v:4517-5284: registers, memories and instances of module `integration_1`. -/
structure S where
  u_difference : I3Axis.difference.S
  u_encode : I3Axis.encode.S
  u_force_end : Beta.force_end.S
  u_merge : I3Axis.merge.S
  u_normalize : I3Axis.normalize.S
  u_predictor : I3Axis.predictor.S
  u_register_file : I3Axis.register_file.S
  u_signals : I3Axis.signals.S

/-- integration_3.v:4919-4936. -/
@[netlist] def merge_end_out (s : S) : Bool :=
  I3Axis.merge.end_out s.u_merge
/-- integration_3.v:5207-5210. -/
@[netlist] def next_end_out (s : S) : Bool :=
  (merge_end_out s)
/-- integration_3.v:5227. -/
@[netlist] def end_out (s : S) : Bool :=
  (next_end_out s)
/-- integration_3.v:4919-4936. -/
@[netlist] def merge_valid_out (s : S) : Bool :=
  I3Axis.merge.valid_out s.u_merge
/-- integration_3.v:5203-5206. -/
@[netlist] def next_valid_out (s : S) : Bool :=
  (merge_valid_out s)
/-- integration_3.v:5228. -/
@[netlist] def valid_out (s : S) : Bool :=
  (next_valid_out s)
/-- integration_3.v:4919-4936. -/
@[netlist] def merge_enc_out_ctr (s : S) : Nat :=
  I3Axis.merge.enc_out_ctr s.u_merge
/-- integration_3.v:5199-5202. -/
@[netlist] def next_enc_out_ctr (s : S) : Nat :=
  (merge_enc_out_ctr s)
/-- integration_3.v:5229. -/
@[netlist] def enc_out_ctr (s : S) : Nat :=
  (next_enc_out_ctr s)
/-- integration_3.v:4919-4936. -/
@[netlist] def merge_enc_out (s : S) : Nat :=
  I3Axis.merge.enc_out s.u_merge
/-- integration_3.v:5195-5198. -/
@[netlist] def next_enc_out (s : S) : Nat :=
  (merge_enc_out s)
/-- integration_3.v:5230. -/
@[netlist] def enc_out (s : S) : Nat :=
  (next_enc_out s)
/-- integration_3.v:4888-4911. -/
@[netlist] def encode_end_out (s : S) : Bool :=
  I3Axis.encode.end_out s.u_encode
/-- integration_3.v:5191-5194. -/
@[netlist] def next_merge_end_in (s : S) : Bool :=
  (encode_end_out s)
/-- integration_3.v:5231. -/
@[netlist] def merge_end_in (s : S) : Bool :=
  (next_merge_end_in s)
/-- integration_3.v:4888-4911. -/
@[netlist] def encode_valid_out (s : S) : Bool :=
  I3Axis.encode.valid_out s.u_encode
/-- integration_3.v:5187-5190. -/
@[netlist] def next_merge_valid_in (s : S) : Bool :=
  (encode_valid_out s)
/-- integration_3.v:5232. -/
@[netlist] def merge_valid_in (s : S) : Bool :=
  (next_merge_valid_in s)
/-- integration_3.v:4888-4911. -/
@[netlist] def encode_enc_ctr_49 (s : S) : Nat :=
  I3Axis.encode.enc_ctr_12 s.u_encode
/-- integration_3.v:5183-5186. -/
@[netlist] def next_merge_enc_in_ctr_55 (s : S) : Nat :=
  (encode_enc_ctr_49 s)
/-- integration_3.v:5233. -/
@[netlist] def merge_enc_in_ctr_55 (s : S) : Nat :=
  (next_merge_enc_in_ctr_55 s)
/-- integration_3.v:4888-4911. -/
@[netlist] def encode_enc_ctr_47 (s : S) : Nat :=
  I3Axis.encode.enc_ctr_10 s.u_encode
/-- integration_3.v:5175-5178. -/
@[netlist] def next_merge_enc_in_ctr_53 (s : S) : Nat :=
  (encode_enc_ctr_47 s)
/-- integration_3.v:5234. -/
@[netlist] def merge_enc_in_ctr_53 (s : S) : Nat :=
  (next_merge_enc_in_ctr_53 s)
/-- integration_3.v:4888-4911. -/
@[netlist] def encode_enc_ctr_45 (s : S) : Nat :=
  I3Axis.encode.enc_ctr_8 s.u_encode
/-- integration_3.v:5171-5174. -/
@[netlist] def next_merge_enc_in_ctr_51 (s : S) : Nat :=
  (encode_enc_ctr_45 s)
/-- integration_3.v:5235. -/
@[netlist] def merge_enc_in_ctr_51 (s : S) : Nat :=
  (next_merge_enc_in_ctr_51 s)
/-- integration_3.v:4888-4911. -/
@[netlist] def encode_enc_ctr (s : S) : Nat :=
  I3Axis.encode.enc_ctr s.u_encode
/-- integration_3.v:5167-5170. -/
@[netlist] def next_merge_enc_in_ctr (s : S) : Nat :=
  (encode_enc_ctr s)
/-- integration_3.v:5236. -/
@[netlist] def merge_enc_in_ctr (s : S) : Nat :=
  (next_merge_enc_in_ctr s)
/-- integration_3.v:4888-4911. -/
@[netlist] def encode_enc_out_48 (s : S) : Nat :=
  I3Axis.encode.enc_out_11 s.u_encode
/-- integration_3.v:5163-5166. -/
@[netlist] def next_merge_enc_in_54 (s : S) : Nat :=
  (encode_enc_out_48 s)
/-- integration_3.v:5237. -/
@[netlist] def merge_enc_in_54 (s : S) : Nat :=
  (next_merge_enc_in_54 s)
/-- integration_3.v:4888-4911. -/
@[netlist] def encode_enc_out_46 (s : S) : Nat :=
  I3Axis.encode.enc_out_9 s.u_encode
/-- integration_3.v:5159-5162. -/
@[netlist] def next_merge_enc_in_52 (s : S) : Nat :=
  (encode_enc_out_46 s)
/-- integration_3.v:5238. -/
@[netlist] def merge_enc_in_52 (s : S) : Nat :=
  (next_merge_enc_in_52 s)
/-- integration_3.v:4888-4911. -/
@[netlist] def encode_enc_out_44 (s : S) : Nat :=
  I3Axis.encode.enc_out_7 s.u_encode
/-- integration_3.v:5155-5158. -/
@[netlist] def next_merge_enc_in_50 (s : S) : Nat :=
  (encode_enc_out_44 s)
/-- integration_3.v:5239. -/
@[netlist] def merge_enc_in_50 (s : S) : Nat :=
  (next_merge_enc_in_50 s)
/-- integration_3.v:4888-4911. -/
@[netlist] def encode_enc_out (s : S) : Nat :=
  I3Axis.encode.enc_out s.u_encode
/-- integration_3.v:5151-5154. -/
@[netlist] def next_merge_enc_in (s : S) : Nat :=
  (encode_enc_out s)
/-- integration_3.v:5240. -/
@[netlist] def merge_enc_in (s : S) : Nat :=
  (next_merge_enc_in s)
/-- integration_3.v:4937-4960. -/
@[netlist] def normalize_end_out (s : S) : Bool :=
  I3Axis.normalize.end_out s.u_normalize
/-- integration_3.v:5147-5150. -/
@[netlist] def next_encode_end_in (s : S) : Bool :=
  (normalize_end_out s)
/-- integration_3.v:5241. -/
@[netlist] def encode_end_in (s : S) : Bool :=
  (next_encode_end_in s)
/-- integration_3.v:4937-4960. -/
@[netlist] def normalize_valid_out (s : S) : Bool :=
  I3Axis.normalize.valid_out s.u_normalize
/-- integration_3.v:5143-5146. -/
@[netlist] def next_encode_valid_in (s : S) : Bool :=
  (normalize_valid_out s)
/-- integration_3.v:5242. -/
@[netlist] def encode_valid_in (s : S) : Bool :=
  (next_encode_valid_in s)
/-- integration_3.v:4937-4960. -/
@[netlist] def normalize_ssss_36 (s : S) : Nat :=
  I3Axis.normalize.ssss_11 s.u_normalize
/-- integration_3.v:5139-5142. -/
@[netlist] def next_encode_ssss_43 (s : S) : Nat :=
  (normalize_ssss_36 s)
/-- integration_3.v:5243. -/
@[netlist] def encode_ssss_43 (s : S) : Nat :=
  (next_encode_ssss_43 s)
/-- integration_3.v:4937-4960. -/
@[netlist] def normalize_ssss_34 (s : S) : Nat :=
  I3Axis.normalize.ssss_9 s.u_normalize
/-- integration_3.v:5131-5134. -/
@[netlist] def next_encode_ssss_41 (s : S) : Nat :=
  (normalize_ssss_34 s)
/-- integration_3.v:5244. -/
@[netlist] def encode_ssss_41 (s : S) : Nat :=
  (next_encode_ssss_41 s)
/-- integration_3.v:4937-4960. -/
@[netlist] def normalize_ssss_32 (s : S) : Nat :=
  I3Axis.normalize.ssss_7 s.u_normalize
/-- integration_3.v:5127-5130. -/
@[netlist] def next_encode_ssss_39 (s : S) : Nat :=
  (normalize_ssss_32 s)
/-- integration_3.v:5245. -/
@[netlist] def encode_ssss_39 (s : S) : Nat :=
  (next_encode_ssss_39 s)
/-- integration_3.v:4937-4960. -/
@[netlist] def normalize_ssss (s : S) : Nat :=
  I3Axis.normalize.ssss s.u_normalize
/-- integration_3.v:5123-5126. -/
@[netlist] def next_encode_ssss (s : S) : Nat :=
  (normalize_ssss s)
/-- integration_3.v:5246. -/
@[netlist] def encode_ssss (s : S) : Nat :=
  (next_encode_ssss s)
/-- integration_3.v:4937-4960. -/
@[netlist] def normalize_val_out_37 (s : S) : Nat :=
  I3Axis.normalize.val_out_12 s.u_normalize
/-- integration_3.v:5119-5122. -/
@[netlist] def next_encode_val_in_42 (s : S) : Nat :=
  (normalize_val_out_37 s)
/-- integration_3.v:5247. -/
@[netlist] def encode_val_in_42 (s : S) : Nat :=
  (next_encode_val_in_42 s)
/-- integration_3.v:4937-4960. -/
@[netlist] def normalize_val_out_35 (s : S) : Nat :=
  I3Axis.normalize.val_out_10 s.u_normalize
/-- integration_3.v:5115-5118. -/
@[netlist] def next_encode_val_in_40 (s : S) : Nat :=
  (normalize_val_out_35 s)
/-- integration_3.v:5248. -/
@[netlist] def encode_val_in_40 (s : S) : Nat :=
  (next_encode_val_in_40 s)
/-- integration_3.v:4937-4960. -/
@[netlist] def normalize_val_out_33 (s : S) : Nat :=
  I3Axis.normalize.val_out_8 s.u_normalize
/-- integration_3.v:5111-5114. -/
@[netlist] def next_encode_val_in_38 (s : S) : Nat :=
  (normalize_val_out_33 s)
/-- integration_3.v:5249. -/
@[netlist] def encode_val_in_38 (s : S) : Nat :=
  (next_encode_val_in_38 s)
/-- integration_3.v:4937-4960. -/
@[netlist] def normalize_val_out (s : S) : Nat :=
  I3Axis.normalize.val_out s.u_normalize
/-- integration_3.v:5107-5110. -/
@[netlist] def next_encode_val_in (s : S) : Nat :=
  (normalize_val_out s)
/-- integration_3.v:5250. -/
@[netlist] def encode_val_in (s : S) : Nat :=
  (next_encode_val_in s)
/-- integration_3.v:4864-4887. -/
@[netlist] def difference_end_out (s : S) : Bool :=
  s.u_difference.end_out
/-- integration_3.v:5103-5106. -/
@[netlist] def next_normalize_end_in (s : S) : Bool :=
  (difference_end_out s)
/-- integration_3.v:5251. -/
@[netlist] def normalize_end_in (s : S) : Bool :=
  (next_normalize_end_in s)
/-- integration_3.v:4864-4887. -/
@[netlist] def difference_valid_out (s : S) : Bool :=
  s.u_difference.valid_out
/-- integration_3.v:5099-5102. -/
@[netlist] def next_normalize_valid_in (s : S) : Bool :=
  (difference_valid_out s)
/-- integration_3.v:5252. -/
@[netlist] def normalize_valid_in (s : S) : Bool :=
  (next_normalize_valid_in s)
/-- integration_3.v:4864-4887. -/
@[netlist] def difference_val_out_25 (s : S) : Nat :=
  s.u_difference.val_out_13
/-- integration_3.v:5095-5098. -/
@[netlist] def next_normalize_vals_in_mns_31 (s : S) : Nat :=
  (difference_val_out_25 s)
/-- integration_3.v:5253. -/
@[netlist] def normalize_vals_in_mns_31 (s : S) : Nat :=
  (next_normalize_vals_in_mns_31 s)
/-- integration_3.v:4864-4887. -/
@[netlist] def difference_val_out_24 (s : S) : Nat :=
  s.u_difference.val_out_12
/-- integration_3.v:5087-5090. -/
@[netlist] def next_normalize_vals_in_mns_29 (s : S) : Nat :=
  (difference_val_out_24 s)
/-- integration_3.v:5254. -/
@[netlist] def normalize_vals_in_mns_29 (s : S) : Nat :=
  (next_normalize_vals_in_mns_29 s)
/-- integration_3.v:4864-4887. -/
@[netlist] def difference_val_out_23 (s : S) : Nat :=
  s.u_difference.val_out_11
/-- integration_3.v:5083-5086. -/
@[netlist] def next_normalize_vals_in_mns_27 (s : S) : Nat :=
  (difference_val_out_23 s)
/-- integration_3.v:5255. -/
@[netlist] def normalize_vals_in_mns_27 (s : S) : Nat :=
  (next_normalize_vals_in_mns_27 s)
/-- integration_3.v:4864-4887. -/
@[netlist] def difference_val_out_22 (s : S) : Nat :=
  s.u_difference.val_out_10
/-- integration_3.v:5079-5082. -/
@[netlist] def next_normalize_vals_in_mns (s : S) : Nat :=
  (difference_val_out_22 s)
/-- integration_3.v:5256. -/
@[netlist] def normalize_vals_in_mns (s : S) : Nat :=
  (next_normalize_vals_in_mns s)
/-- integration_3.v:4864-4887. -/
@[netlist] def difference_val_out_21 (s : S) : Nat :=
  s.u_difference.val_out_9
/-- integration_3.v:5075-5078. -/
@[netlist] def next_normalize_val_in_30 (s : S) : Nat :=
  (difference_val_out_21 s)
/-- integration_3.v:5257. -/
@[netlist] def normalize_val_in_30 (s : S) : Nat :=
  (next_normalize_val_in_30 s)
/-- integration_3.v:4864-4887. -/
@[netlist] def difference_val_out_20 (s : S) : Nat :=
  s.u_difference.val_out_8
/-- integration_3.v:5071-5074. -/
@[netlist] def next_normalize_val_in_28 (s : S) : Nat :=
  (difference_val_out_20 s)
/-- integration_3.v:5258. -/
@[netlist] def normalize_val_in_28 (s : S) : Nat :=
  (next_normalize_val_in_28 s)
/-- integration_3.v:4864-4887. -/
@[netlist] def difference_val_out_19 (s : S) : Nat :=
  s.u_difference.val_out_7
/-- integration_3.v:5067-5070. -/
@[netlist] def next_normalize_val_in_26 (s : S) : Nat :=
  (difference_val_out_19 s)
/-- integration_3.v:5259. -/
@[netlist] def normalize_val_in_26 (s : S) : Nat :=
  (next_normalize_val_in_26 s)
/-- integration_3.v:4864-4887. -/
@[netlist] def difference_val_out (s : S) : Nat :=
  s.u_difference.val_out
/-- integration_3.v:5063-5066. -/
@[netlist] def next_normalize_val_in (s : S) : Nat :=
  (difference_val_out s)
/-- integration_3.v:5260. -/
@[netlist] def normalize_val_in (s : S) : Nat :=
  (next_normalize_val_in s)
/-- integration_3.v:4961-4981. -/
@[netlist] def predictor_end_out (s : S) : Bool :=
  s.u_predictor.end_out
/-- integration_3.v:5059-5062. -/
@[netlist] def next_difference_end_in (s : S) : Bool :=
  (predictor_end_out s)
/-- integration_3.v:5261. -/
@[netlist] def difference_end_in (s : S) : Bool :=
  (next_difference_end_in s)
/-- integration_3.v:4961-4981. -/
@[netlist] def predictor_valid_out (s : S) : Bool :=
  s.u_predictor.valid_out
/-- integration_3.v:5055-5058. -/
@[netlist] def next_difference_valid_in (s : S) : Bool :=
  (predictor_valid_out s)
/-- integration_3.v:5262. -/
@[netlist] def difference_valid_in (s : S) : Bool :=
  (next_difference_valid_in s)
/-- integration_3.v:4961-4981. -/
@[netlist] def predictor_predic_out_12 (s : S) : Nat :=
  s.u_predictor.predic_out_9
/-- integration_3.v:5051-5054. -/
@[netlist] def next_difference_predic_in_18 (s : S) : Nat :=
  (predictor_predic_out_12 s)
/-- integration_3.v:5263. -/
@[netlist] def difference_predic_in_18 (s : S) : Nat :=
  (next_difference_predic_in_18 s)
/-- integration_3.v:4961-4981. -/
@[netlist] def predictor_predic_out_11 (s : S) : Nat :=
  s.u_predictor.predic_out_8
/-- integration_3.v:5043-5046. -/
@[netlist] def next_difference_predic_in_16 (s : S) : Nat :=
  (predictor_predic_out_11 s)
/-- integration_3.v:5264. -/
@[netlist] def difference_predic_in_16 (s : S) : Nat :=
  (next_difference_predic_in_16 s)
/-- integration_3.v:4961-4981. -/
@[netlist] def predictor_predic_out_10 (s : S) : Nat :=
  s.u_predictor.predic_out_7
/-- integration_3.v:5039-5042. -/
@[netlist] def next_difference_predic_in_14 (s : S) : Nat :=
  (predictor_predic_out_10 s)
/-- integration_3.v:5265. -/
@[netlist] def difference_predic_in_14 (s : S) : Nat :=
  (next_difference_predic_in_14 s)
/-- integration_3.v:4961-4981. -/
@[netlist] def predictor_predic_out (s : S) : Nat :=
  s.u_predictor.predic_out
/-- integration_3.v:5035-5038. -/
@[netlist] def next_difference_predic_in (s : S) : Nat :=
  (predictor_predic_out s)
/-- integration_3.v:5266. -/
@[netlist] def difference_predic_in (s : S) : Nat :=
  (next_difference_predic_in s)
/-- integration_3.v:4961-4981. -/
@[netlist] def predictor_pixel_out_9 (s : S) : Nat :=
  s.u_predictor.pixel_out_6
/-- integration_3.v:5031-5034. -/
@[netlist] def next_difference_pixel_in_17 (s : S) : Nat :=
  (predictor_pixel_out_9 s)
/-- integration_3.v:5267. -/
@[netlist] def difference_pixel_in_17 (s : S) : Nat :=
  (next_difference_pixel_in_17 s)
/-- integration_3.v:4961-4981. -/
@[netlist] def predictor_pixel_out_8 (s : S) : Nat :=
  s.u_predictor.pixel_out_5
/-- integration_3.v:5027-5030. -/
@[netlist] def next_difference_pixel_in_15 (s : S) : Nat :=
  (predictor_pixel_out_8 s)
/-- integration_3.v:5268. -/
@[netlist] def difference_pixel_in_15 (s : S) : Nat :=
  (next_difference_pixel_in_15 s)
/-- integration_3.v:4961-4981. -/
@[netlist] def predictor_pixel_out_7 (s : S) : Nat :=
  s.u_predictor.pixel_out_4
/-- integration_3.v:5023-5026. -/
@[netlist] def next_difference_pixel_in_13 (s : S) : Nat :=
  (predictor_pixel_out_7 s)
/-- integration_3.v:5269. -/
@[netlist] def difference_pixel_in_13 (s : S) : Nat :=
  (next_difference_pixel_in_13 s)
/-- integration_3.v:4961-4981. -/
@[netlist] def predictor_pixel_out (s : S) : Nat :=
  s.u_predictor.pixel_out
/-- integration_3.v:5019-5022. -/
@[netlist] def next_difference_pixel_in (s : S) : Nat :=
  (predictor_pixel_out s)
/-- integration_3.v:5270. -/
@[netlist] def difference_pixel_in (s : S) : Nat :=
  (next_difference_pixel_in s)
/-- integration_3.v:5015-5018. -/
@[netlist] def next_predictor_valid_in (s : S) (valid_in : Bool) : Bool :=
  valid_in
/-- integration_3.v:5271. -/
@[netlist] def predictor_valid_in (s : S) (valid_in : Bool) : Bool :=
  (next_predictor_valid_in s valid_in)
/-- integration_3.v:4990-4998. -/
@[netlist] def end_of_frame (s : S) : Bool :=
  s.u_signals.end_of_frame
/-- integration_3.v:5011-5014. -/
@[netlist] def next_predictor_end_in (s : S) : Bool :=
  (end_of_frame s)
/-- integration_3.v:5272. -/
@[netlist] def predictor_end_in (s : S) : Bool :=
  (next_predictor_end_in s)
/-- integration_3.v:4990-4998. -/
@[netlist] def signals_new_row (s : S) : Bool :=
  s.u_signals.new_row
/-- integration_3.v:5007-5010. -/
@[netlist] def next_predictor_new_row (s : S) : Bool :=
  (signals_new_row s)
/-- integration_3.v:5273. -/
@[netlist] def predictor_new_row (s : S) : Bool :=
  (next_predictor_new_row s)
/-- integration_3.v:5223-5226. -/
@[netlist] def next_predictor_pixel_in_6 (s : S) (pixel_in_3 : Nat) : Nat :=
  pixel_in_3
/-- integration_3.v:5274. -/
@[netlist] def predictor_pixel_in_6 (s : S) (pixel_in_3 : Nat) : Nat :=
  (next_predictor_pixel_in_6 s pixel_in_3)
/-- integration_3.v:5219-5222. -/
@[netlist] def next_predictor_pixel_in_5 (s : S) (pixel_in_2 : Nat) : Nat :=
  pixel_in_2
/-- integration_3.v:5275. -/
@[netlist] def predictor_pixel_in_5 (s : S) (pixel_in_2 : Nat) : Nat :=
  (next_predictor_pixel_in_5 s pixel_in_2)
/-- integration_3.v:5215-5218. -/
@[netlist] def next_predictor_pixel_in_4 (s : S) (pixel_in_1 : Nat) : Nat :=
  pixel_in_1
/-- integration_3.v:5276. -/
@[netlist] def predictor_pixel_in_4 (s : S) (pixel_in_1 : Nat) : Nat :=
  (next_predictor_pixel_in_4 s pixel_in_1)
/-- integration_3.v:5211-5214. -/
@[netlist] def next_predictor_pixel_in (s : S) (pixel_in : Nat) : Nat :=
  pixel_in
/-- integration_3.v:5277. -/
@[netlist] def predictor_pixel_in (s : S) (pixel_in : Nat) : Nat :=
  (next_predictor_pixel_in s pixel_in)
/-- integration_3.v:5179-5182. -/
@[netlist] def next_signals_new_input (s : S) (valid_in : Bool) : Bool :=
  valid_in
/-- integration_3.v:5278. -/
@[netlist] def signals_new_input (s : S) (valid_in : Bool) : Bool :=
  (next_signals_new_input s valid_in)
/-- integration_3.v:4912-4918. -/
@[netlist] def force_end_fend (s : S) : Bool :=
  s.u_force_end.fend
/-- integration_3.v:5135-5138. -/
@[netlist] def next_fend_out (s : S) : Bool :=
  (force_end_fend s)
/-- integration_3.v:5279. -/
@[netlist] def fend_out (s : S) : Bool :=
  (next_fend_out s)
/-- integration_3.v:5091-5094. -/
@[netlist] def next_force_end_valid_in (s : S) (valid_in : Bool) : Bool :=
  valid_in
/-- integration_3.v:5280. -/
@[netlist] def force_end_valid_in (s : S) (valid_in : Bool) : Bool :=
  (next_force_end_valid_in s valid_in)
/-- integration_3.v:4982-4989. -/
@[netlist] def register_file_allowed_cycles (s : S) : Nat :=
  I3Axis.register_file.allowed_cycles s.u_register_file
/-- integration_3.v:5047-5050. -/
@[netlist] def next_force_end_allowed_cycles (s : S) : Nat :=
  (register_file_allowed_cycles s)
/-- integration_3.v:5281. -/
@[netlist] def force_end_allowed_cycles (s : S) : Nat :=
  (next_force_end_allowed_cycles s)
/-- integration_3.v:4982-4989. -/
@[netlist] def register_file_width (s : S) : Nat :=
  I3Axis.register_file.width s.u_register_file
/-- integration_3.v:5003-5006. -/
@[netlist] def next_signals_width (s : S) : Nat :=
  (register_file_width s)
/-- integration_3.v:5282. -/
@[netlist] def signals_width (s : S) : Nat :=
  (next_signals_width s)
/-- integration_3.v:4982-4989. -/
@[netlist] def register_file_height (s : S) : Nat :=
  I3Axis.register_file.height s.u_register_file
/-- integration_3.v:4999-5002. -/
@[netlist] def next_signals_height (s : S) : Nat :=
  (register_file_height s)
/-- integration_3.v:5283. -/
@[netlist] def signals_height (s : S) : Nat :=
  (next_signals_height s)

/-- integration_3.v:4517-5284: one rising clock edge (`always @(posedge ...)`). -/
@[netlist] def step (s : S) (pixel_in : Nat) (pixel_in_1 : Nat) (pixel_in_2 : Nat) (pixel_in_3 : Nat) (rst : Bool) (full_rst : Bool) (valid_in : Bool) : S :=
  { u_difference := I3Axis.difference.step s.u_difference (difference_pixel_in s) (difference_predic_in s) (difference_pixel_in_13 s) (difference_predic_in_14 s) (difference_pixel_in_15 s) (difference_predic_in_16 s) (difference_pixel_in_17 s) (difference_predic_in_18 s) (difference_end_in s) rst (difference_valid_in s)
    u_encode := I3Axis.encode.step s.u_encode (encode_end_in s) (encode_valid_in s) (encode_ssss s) (encode_val_in_38 s) (encode_ssss_39 s) (encode_val_in_40 s) (encode_ssss_41 s) (encode_val_in_42 s) (encode_ssss_43 s) rst (encode_val_in s)
    u_force_end := Beta.force_end.step s.u_force_end (force_end_allowed_cycles s) rst (force_end_valid_in s valid_in)
    u_merge := I3Axis.merge.step s.u_merge (merge_enc_in_ctr s) (merge_valid_in s) (merge_end_in s) (merge_enc_in_50 s) (merge_enc_in_ctr_51 s) (merge_enc_in_52 s) (merge_enc_in_ctr_53 s) (merge_enc_in_54 s) (merge_enc_in_ctr_55 s) rst (merge_enc_in s)
    u_normalize := I3Axis.normalize.step s.u_normalize (normalize_valid_in s) (normalize_end_in s) (normalize_vals_in_mns s) (normalize_val_in_26 s) (normalize_vals_in_mns_27 s) (normalize_val_in_28 s) (normalize_vals_in_mns_29 s) (normalize_val_in_30 s) (normalize_vals_in_mns_31 s) rst (normalize_val_in s)
    u_predictor := I3Axis.predictor.step s.u_predictor (predictor_pixel_in s pixel_in) (predictor_pixel_in_4 s pixel_in_1) (predictor_pixel_in_5 s pixel_in_2) (predictor_pixel_in_6 s pixel_in_3) (predictor_new_row s) (predictor_end_in s) rst (predictor_valid_in s valid_in)
    u_register_file := I3Axis.register_file.step s.u_register_file full_rst
    u_signals := I3Axis.signals.step s.u_signals (signals_width s) (signals_height s) rst (signals_new_input s valid_in) }

/-- integration_3.v:4517-5284: the initial values given in the netlist. -/
def Init (s : S) : Prop :=
  I3Axis.difference.Init s.u_difference ∧
  I3Axis.encode.Init s.u_encode ∧
  Beta.force_end.Init s.u_force_end ∧
  I3Axis.merge.Init s.u_merge ∧
  I3Axis.normalize.Init s.u_normalize ∧
  I3Axis.predictor.Init s.u_predictor ∧
  I3Axis.register_file.Init s.u_register_file ∧
  I3Axis.signals.Init s.u_signals

/-- integration_3.v:4517-5284: a state with these initial values; registers without one are 0. -/
def powerUp : S :=
  { u_difference := I3Axis.difference.powerUp
    u_encode := I3Axis.encode.powerUp
    u_force_end := Beta.force_end.powerUp
    u_merge := I3Axis.merge.powerUp
    u_normalize := I3Axis.normalize.powerUp
    u_predictor := I3Axis.predictor.powerUp
    u_register_file := I3Axis.register_file.powerUp
    u_signals := I3Axis.signals.powerUp }

theorem powerUp_init : Init powerUp := ⟨I3Axis.difference.powerUp_init, I3Axis.encode.powerUp_init, Beta.force_end.powerUp_init, I3Axis.merge.powerUp_init, I3Axis.normalize.powerUp_init, I3Axis.predictor.powerUp_init, I3Axis.register_file.powerUp_init, I3Axis.signals.powerUp_init⟩

end integration_1

namespace integration_2

/-- integration_3.v:5288-5775: registers, memories and instances of module `integration_2`. -/
structure S where
  nready_reset : Bool
  nready_reset_counter : Nat
  nready_end_reg : Bool
  nready_end : Bool
  u_converter : I3Axis.converter.S
  u_converter_fifo : I3Axis.converter_fifo.S
  u_integration_1 : integration_1.S
  u_lj92_pipeline_fifo : I3Axis.lj92_pipeline_fifo.S

/-- integration_3.v:5505. -/
@[netlist] def w9 (s : S) (valid_in : Bool) : Bool :=
  valid_in == true
/-- integration_3.v:5566-5582. -/
@[netlist] def integration_1_end_of_frame (s : S) : Bool :=
  integration_1.end_of_frame s.u_integration_1
/-- integration_3.v:5529. -/
@[netlist] def w7 (s : S) : Bool :=
  (integration_1_end_of_frame s) == true
/-- integration_3.v:5506. -/
@[netlist] def w11 (s : S) (valid_in : Bool) : Bool :=
  (w7 s) && (w9 s valid_in)
/-- integration_3.v:5583-5596. -/
@[netlist] def lj92_pipeline_fifo_close_full (s : S) : Bool :=
  s.u_lj92_pipeline_fifo.close_full
/-- integration_3.v:5519. -/
@[netlist] def w38 (s : S) : Bool :=
  (lj92_pipeline_fifo_close_full s) == true
/-- integration_3.v:5520. -/
@[netlist] def w40 (s : S) : Bool :=
  s.nready_end == true
/-- integration_3.v:5521. -/
@[netlist] def w42 (s : S) : Bool :=
  (w38 s) || (w40 s)
/-- integration_3.v:5522. -/
@[netlist] def w44 (s : S) : Bool :=
  s.nready_reset == false
/-- integration_3.v:5523. -/
@[netlist] def w46 (s : S) : Bool :=
  (w42 s) || (w44 s)
/-- integration_3.v:5727-5730. -/
@[netlist] def next_nready_signal (s : S) : Bool :=
  (w46 s)
/-- integration_3.v:5773. -/
@[netlist] def nready_signal (s : S) : Bool :=
  (next_nready_signal s)
/-- integration_3.v:5633-5636. -/
@[netlist] def next_nready (s : S) : Bool :=
  (nready_signal s)
/-- integration_3.v:5763. -/
@[netlist] def nready (s : S) : Bool :=
  (next_nready s)
/-- integration_3.v:5507. -/
@[netlist] def w13 (s : S) : Bool :=
  (nready s) == false
/-- integration_3.v:5508. -/
@[netlist] def w15 (s : S) (valid_in : Bool) : Bool :=
  (w11 s valid_in) && (w13 s)
/-- integration_3.v:5597-5604. -/
@[netlist] def next_nready_end_wire (s : S) (valid_in : Bool) : Bool :=
  if (w15 s valid_in) = true then true
  else false
/-- integration_3.v:5774. -/
@[netlist] def nready_end_wire (s : S) (valid_in : Bool) : Bool :=
  (next_nready_end_wire s valid_in)
/-- integration_3.v:5509. -/
@[netlist] def w17 (s : S) (valid_in : Bool) : Bool :=
  (nready_end_wire s valid_in) == true
/-- integration_3.v:5510. -/
@[netlist] def w19 (s : S) : Bool :=
  s.nready_end_reg == true
/-- integration_3.v:5511. -/
@[netlist] def w21 (s : S) (valid_in : Bool) : Bool :=
  (w17 s valid_in) || (w19 s)
/-- integration_3.v:5512. -/
@[netlist] def w23 (s : S) : Bool :=
  (integration_1_end_of_frame s) == true
/-- integration_3.v:5513. -/
@[netlist] def w25 (s : S) (valid_in : Bool) : Bool :=
  valid_in == true
/-- integration_3.v:5514. -/
@[netlist] def w27 (s : S) (valid_in : Bool) : Bool :=
  (w23 s) && (w25 s valid_in)
/-- integration_3.v:5515. -/
@[netlist] def w29 (s : S) : Bool :=
  (nready s) == false
/-- integration_3.v:5516. -/
@[netlist] def w31 (s : S) (valid_in : Bool) : Bool :=
  (w27 s valid_in) && (w29 s)
/-- integration_3.v:5517. -/
@[netlist] def w34 (s : S) : Nat :=
  (s.nready_reset_counter + 1) % 2 ^ 4
/-- integration_3.v:5518. -/
@[netlist] def w36 (s : S) : Bool :=
  s.nready_reset_counter == 7
/-- integration_3.v:5524. -/
@[netlist] def w48 (s : S) (valid_in : Bool) : Bool :=
  valid_in == true
/-- integration_3.v:5525. -/
@[netlist] def w50 (s : S) : Bool :=
  (nready_signal s) == false
/-- integration_3.v:5526. -/
@[netlist] def w52 (s : S) (valid_in : Bool) : Bool :=
  (w48 s valid_in) && (w50 s)
/-- integration_3.v:5552-5565. -/
@[netlist] def converter_fifo_enc_out (s : S) : Nat :=
  I3Axis.converter_fifo.enc_out s.u_converter_fifo
/-- integration_3.v:5527. -/
@[netlist] def w54 (s : S) : Nat :=
  (converter_fifo_enc_out s)
/-- integration_3.v:5552-5565. -/
@[netlist] def converter_fifo_enc_out_ctr (s : S) : Nat :=
  I3Axis.converter_fifo.enc_out_ctr s.u_converter_fifo
/-- integration_3.v:5528. -/
@[netlist] def w56 (s : S) : Nat :=
  (converter_fifo_enc_out_ctr s)
/-- integration_3.v:5747. -/
@[netlist] def w33 (s : S) : Nat :=
  (w34 s)
/-- integration_3.v:5712-5715. -/
@[netlist] def next_converter_fifo_latch_output (s : S) (latch_output : Bool) : Bool :=
  latch_output
/-- integration_3.v:5748. -/
@[netlist] def converter_fifo_latch_output (s : S) (latch_output : Bool) : Bool :=
  (next_converter_fifo_latch_output s latch_output)
/-- integration_3.v:5552-5565. -/
@[netlist] def converter_fifo_out_end (s : S) : Bool :=
  I3Axis.converter_fifo.out_end s.u_converter_fifo
/-- integration_3.v:5700-5703. -/
@[netlist] def next_out_end (s : S) : Bool :=
  (converter_fifo_out_end s)
/-- integration_3.v:5749. -/
@[netlist] def out_end (s : S) : Bool :=
  (next_out_end s)
/-- integration_3.v:5552-5565. -/
@[netlist] def converter_fifo_valid_out (s : S) : Bool :=
  I3Axis.converter_fifo.valid_out s.u_converter_fifo
/-- integration_3.v:5696-5699. -/
@[netlist] def next_valid_out (s : S) : Bool :=
  (converter_fifo_valid_out s)
/-- integration_3.v:5750. -/
@[netlist] def valid_out (s : S) : Bool :=
  (next_valid_out s)
/-- integration_3.v:5692-5695. -/
@[netlist] def next_enc_out_ctr (s : S) : Nat :=
  (w56 s)
/-- integration_3.v:5751. -/
@[netlist] def enc_out_ctr (s : S) : Nat :=
  (next_enc_out_ctr s)
/-- integration_3.v:5688-5691. -/
@[netlist] def next_enc_out (s : S) : Nat :=
  (w54 s)
/-- integration_3.v:5752. -/
@[netlist] def enc_out (s : S) : Nat :=
  (next_enc_out s)
/-- integration_3.v:5552-5565. -/
@[netlist] def converter_fifo_close_full (s : S) : Bool :=
  s.u_converter_fifo.close_full
/-- integration_3.v:5684-5687. -/
@[netlist] def next_converter_close_full (s : S) : Bool :=
  (converter_fifo_close_full s)
/-- integration_3.v:5753. -/
@[netlist] def converter_close_full (s : S) : Bool :=
  (next_converter_close_full s)
/-- integration_3.v:5538-5551. -/
@[netlist] def converter_valid_in (s : S) : Bool :=
  s.u_converter.valid_in
/-- integration_3.v:5680-5683. -/
@[netlist] def next_converter_fifo_valid_in (s : S) : Bool :=
  (converter_valid_in s)
/-- integration_3.v:5754. -/
@[netlist] def converter_fifo_valid_in (s : S) : Bool :=
  (next_converter_fifo_valid_in s)
/-- integration_3.v:5538-5551. -/
@[netlist] def converter_in_end (s : S) : Bool :=
  s.u_converter.in_end
/-- integration_3.v:5676-5679. -/
@[netlist] def next_converter_fifo_in_end (s : S) : Bool :=
  (converter_in_end s)
/-- integration_3.v:5755. -/
@[netlist] def converter_fifo_in_end (s : S) : Bool :=
  (next_converter_fifo_in_end s)
/-- integration_3.v:5538-5551. -/
@[netlist] def converter_enc_in_ctr (s : S) : Nat :=
  s.u_converter.enc_in_ctr
/-- integration_3.v:5672-5675. -/
@[netlist] def next_converter_fifo_enc_in_ctr (s : S) : Nat :=
  (converter_enc_in_ctr s)
/-- integration_3.v:5756. -/
@[netlist] def converter_fifo_enc_in_ctr (s : S) : Nat :=
  (next_converter_fifo_enc_in_ctr s)
/-- integration_3.v:5538-5551. -/
@[netlist] def converter_enc_in (s : S) : Nat :=
  s.u_converter.enc_in
/-- integration_3.v:5668-5671. -/
@[netlist] def next_converter_fifo_enc_in (s : S) : Nat :=
  (converter_enc_in s)
/-- integration_3.v:5757. -/
@[netlist] def converter_fifo_enc_in (s : S) : Nat :=
  (next_converter_fifo_enc_in s)
/-- integration_3.v:5583-5596. -/
@[netlist] def lj92_pipeline_fifo_valid_out (s : S) : Bool :=
  I3Axis.lj92_pipeline_fifo.valid_out s.u_lj92_pipeline_fifo
/-- integration_3.v:5664-5667. -/
@[netlist] def next_converter_valid_out (s : S) : Bool :=
  (lj92_pipeline_fifo_valid_out s)
/-- integration_3.v:5758. -/
@[netlist] def converter_valid_out (s : S) : Bool :=
  (next_converter_valid_out s)
/-- integration_3.v:5583-5596. -/
@[netlist] def lj92_pipeline_fifo_out_end (s : S) : Bool :=
  I3Axis.lj92_pipeline_fifo.out_end s.u_lj92_pipeline_fifo
/-- integration_3.v:5649-5652. -/
@[netlist] def next_converter_out_end (s : S) : Bool :=
  (lj92_pipeline_fifo_out_end s)
/-- integration_3.v:5759. -/
@[netlist] def converter_out_end (s : S) : Bool :=
  (next_converter_out_end s)
/-- integration_3.v:5583-5596. -/
@[netlist] def lj92_pipeline_fifo_enc_out_ctr (s : S) : Nat :=
  I3Axis.lj92_pipeline_fifo.enc_out_ctr s.u_lj92_pipeline_fifo
/-- integration_3.v:5645-5648. -/
@[netlist] def next_converter_enc_out_ctr (s : S) : Nat :=
  (lj92_pipeline_fifo_enc_out_ctr s)
/-- integration_3.v:5760. -/
@[netlist] def converter_enc_out_ctr (s : S) : Nat :=
  (next_converter_enc_out_ctr s)
/-- integration_3.v:5583-5596. -/
@[netlist] def lj92_pipeline_fifo_enc_out (s : S) : Nat :=
  I3Axis.lj92_pipeline_fifo.enc_out s.u_lj92_pipeline_fifo
/-- integration_3.v:5641-5644. -/
@[netlist] def next_converter_enc_out (s : S) : Nat :=
  (lj92_pipeline_fifo_enc_out s)
/-- integration_3.v:5761. -/
@[netlist] def converter_enc_out (s : S) : Nat :=
  (next_converter_enc_out s)
/-- integration_3.v:5538-5551. -/
@[netlist] def converter_latch_output (s : S) : Bool :=
  s.u_converter.latch_output
/-- integration_3.v:5637-5640. -/
@[netlist] def next_lj92_pipeline_fifo_latch_output (s : S) : Bool :=
  (converter_latch_output s)
/-- integration_3.v:5762. -/
@[netlist] def lj92_pipeline_fifo_latch_output (s : S) : Bool :=
  (next_lj92_pipeline_fifo_latch_output s)
/-- integration_3.v:5566-5582. -/
@[netlist] def integration_1_end_out (s : S) : Bool :=
  integration_1.end_out s.u_integration_1
/-- integration_3.v:5629-5632. -/
@[netlist] def next_lj92_pipeline_fifo_in_end (s : S) : Bool :=
  (integration_1_end_out s)
/-- integration_3.v:5764. -/
@[netlist] def lj92_pipeline_fifo_in_end (s : S) : Bool :=
  (next_lj92_pipeline_fifo_in_end s)
/-- integration_3.v:5566-5582. -/
@[netlist] def integration_1_valid_out (s : S) : Bool :=
  integration_1.valid_out s.u_integration_1
/-- integration_3.v:5625-5628. -/
@[netlist] def next_lj92_pipeline_fifo_valid_in (s : S) : Bool :=
  (integration_1_valid_out s)
/-- integration_3.v:5765. -/
@[netlist] def lj92_pipeline_fifo_valid_in (s : S) : Bool :=
  (next_lj92_pipeline_fifo_valid_in s)
/-- integration_3.v:5566-5582. -/
@[netlist] def integration_1_enc_out_ctr (s : S) : Nat :=
  integration_1.enc_out_ctr s.u_integration_1
/-- integration_3.v:5621-5624. -/
@[netlist] def next_lj92_pipeline_fifo_enc_in_ctr (s : S) : Nat :=
  (integration_1_enc_out_ctr s)
/-- integration_3.v:5766. -/
@[netlist] def lj92_pipeline_fifo_enc_in_ctr (s : S) : Nat :=
  (next_lj92_pipeline_fifo_enc_in_ctr s)
/-- integration_3.v:5566-5582. -/
@[netlist] def integration_1_enc_out (s : S) : Nat :=
  integration_1.enc_out s.u_integration_1
/-- integration_3.v:5617-5620. -/
@[netlist] def next_lj92_pipeline_fifo_enc_in (s : S) : Nat :=
  (integration_1_enc_out s)
/-- integration_3.v:5767. -/
@[netlist] def lj92_pipeline_fifo_enc_in (s : S) : Nat :=
  (next_lj92_pipeline_fifo_enc_in s)
/-- integration_3.v:5613-5616. -/
@[netlist] def next_integration_1_valid_in (s : S) (valid_in : Bool) : Bool :=
  (w52 s valid_in)
/-- integration_3.v:5768. -/
@[netlist] def integration_1_valid_in (s : S) (valid_in : Bool) : Bool :=
  (next_integration_1_valid_in s valid_in)
/-- integration_3.v:5743-5746. -/
@[netlist] def next_integration_1_pixel_in_6 (s : S) (pixel_in_3 : Nat) : Nat :=
  pixel_in_3
/-- integration_3.v:5769. -/
@[netlist] def integration_1_pixel_in_6 (s : S) (pixel_in_3 : Nat) : Nat :=
  (next_integration_1_pixel_in_6 s pixel_in_3)
/-- integration_3.v:5739-5742. -/
@[netlist] def next_integration_1_pixel_in_5 (s : S) (pixel_in_2 : Nat) : Nat :=
  pixel_in_2
/-- integration_3.v:5770. -/
@[netlist] def integration_1_pixel_in_5 (s : S) (pixel_in_2 : Nat) : Nat :=
  (next_integration_1_pixel_in_5 s pixel_in_2)
/-- integration_3.v:5735-5738. -/
@[netlist] def next_integration_1_pixel_in_4 (s : S) (pixel_in_1 : Nat) : Nat :=
  pixel_in_1
/-- integration_3.v:5771. -/
@[netlist] def integration_1_pixel_in_4 (s : S) (pixel_in_1 : Nat) : Nat :=
  (next_integration_1_pixel_in_4 s pixel_in_1)
/-- integration_3.v:5731-5734. -/
@[netlist] def next_integration_1_pixel_in (s : S) (pixel_in : Nat) : Nat :=
  pixel_in
/-- integration_3.v:5772. -/
@[netlist] def integration_1_pixel_in (s : S) (pixel_in : Nat) : Nat :=
  (next_integration_1_pixel_in s pixel_in)
/-- integration_3.v:5605-5612. -/
@[netlist] def next_nready_end (s : S) (rst : Bool) (valid_in : Bool) : Bool :=
  let e1 := (w21 s valid_in)
  if rst = true then false
  else e1
/-- integration_3.v:5653-5663. -/
@[netlist] def next_nready_end_reg (s : S) (rst : Bool) (valid_in : Bool) : Bool :=
  let e1 := if (w31 s valid_in) = true then true
  else s.nready_end_reg
  if rst = true then false
  else e1
/-- integration_3.v:5704-5711. -/
@[netlist] def next_nready_reset_counter (s : S) (rst : Bool) : Nat :=
  let e1 := slc (w33 s) 0 3
  if rst = true then 0
  else e1
/-- integration_3.v:5716-5726. -/
@[netlist] def next_nready_reset (s : S) (rst : Bool) : Bool :=
  let e1 := if (w36 s) = true then true
  else s.nready_reset
  if rst = true then false
  else e1
/-- integration_3.v:5566-5582. -/
@[netlist] def fend_out (s : S) : Bool :=
  integration_1.fend_out s.u_integration_1

/-- integration_3.v:5288-5775: one rising clock edge (`always @(posedge ...)`). -/
@[netlist] def step (s : S) (pixel_in : Nat) (pixel_in_1 : Nat) (pixel_in_2 : Nat) (pixel_in_3 : Nat) (latch_output : Bool) (rst : Bool) (full_rst : Bool) (valid_in : Bool) : S :=
  { nready_reset := (next_nready_reset s rst)
    nready_reset_counter := (next_nready_reset_counter s rst)
    nready_end_reg := (next_nready_end_reg s rst valid_in)
    nready_end := (next_nready_end s rst valid_in)
    u_converter := I3Axis.converter.step s.u_converter (converter_valid_out s) (converter_enc_out s) (converter_enc_out_ctr s) (converter_out_end s) rst (converter_close_full s)
    u_converter_fifo := I3Axis.converter_fifo.step s.u_converter_fifo (converter_fifo_enc_in s) (converter_fifo_enc_in_ctr s) (converter_fifo_in_end s) (converter_fifo_latch_output s latch_output) rst (converter_fifo_valid_in s)
    u_integration_1 := integration_1.step s.u_integration_1 (integration_1_pixel_in s pixel_in) (integration_1_pixel_in_4 s pixel_in_1) (integration_1_pixel_in_5 s pixel_in_2) (integration_1_pixel_in_6 s pixel_in_3) rst full_rst (integration_1_valid_in s valid_in)
    u_lj92_pipeline_fifo := I3Axis.lj92_pipeline_fifo.step s.u_lj92_pipeline_fifo (lj92_pipeline_fifo_enc_in s) (lj92_pipeline_fifo_enc_in_ctr s) (lj92_pipeline_fifo_in_end s) (lj92_pipeline_fifo_latch_output s) rst (lj92_pipeline_fifo_valid_in s) }

/-- integration_3.v:5288-5775: the initial values given in the netlist. -/
def Init (s : S) : Prop :=
  s.nready_reset = false ∧
  s.nready_reset_counter = 0 ∧
  s.nready_end_reg = false ∧
  s.nready_end = false ∧
  I3Axis.converter.Init s.u_converter ∧
  I3Axis.converter_fifo.Init s.u_converter_fifo ∧
  integration_1.Init s.u_integration_1 ∧
  I3Axis.lj92_pipeline_fifo.Init s.u_lj92_pipeline_fifo

/-- integration_3.v:5288-5775: a state with these initial values; registers without one are 0. -/
def powerUp : S :=
  { nready_reset := false
    nready_reset_counter := 0
    nready_end_reg := false
    nready_end := false
    u_converter := I3Axis.converter.powerUp
    u_converter_fifo := I3Axis.converter_fifo.powerUp
    u_integration_1 := integration_1.powerUp
    u_lj92_pipeline_fifo := I3Axis.lj92_pipeline_fifo.powerUp }

theorem powerUp_init : Init powerUp := ⟨rfl, rfl, rfl, rfl, I3Axis.converter.powerUp_init, I3Axis.converter_fifo.powerUp_init, integration_1.powerUp_init, I3Axis.lj92_pipeline_fifo.powerUp_init⟩

end integration_2

namespace top

/-- integration_3.v:7474-7681: registers, memories and instances of module `top`. -/
structure S where
  u_integration_2 : integration_2.S
  u_vbits_to_cbits : I3Axis.vbits_to_cbits.S

/-- integration_3.v:7575-7592. -/
@[netlist] def integration_2_nready (s : S) : Bool :=
  integration_2.nready s.u_integration_2
/-- integration_3.v:7630-7633. -/
@[netlist] def next_nready (s : S) : Bool :=
  (integration_2_nready s)
/-- integration_3.v:7666. -/
@[netlist] def nready (s : S) : Bool :=
  (next_nready s)
/-- integration_3.v:7593-7605. -/
@[netlist] def vbits_to_cbits_end_out (s : S) : Bool :=
  I3Axis.vbits_to_cbits.end_out s.u_vbits_to_cbits
/-- integration_3.v:7626-7629. -/
@[netlist] def next_end_out (s : S) : Bool :=
  (vbits_to_cbits_end_out s)
/-- integration_3.v:7667. -/
@[netlist] def end_out (s : S) : Bool :=
  (next_end_out s)
/-- integration_3.v:7593-7605. -/
@[netlist] def vbits_to_cbits_valid_out (s : S) : Bool :=
  I3Axis.vbits_to_cbits.valid_out s.u_vbits_to_cbits
/-- integration_3.v:7622-7625. -/
@[netlist] def next_valid_out (s : S) : Bool :=
  (vbits_to_cbits_valid_out s)
/-- integration_3.v:7668. -/
@[netlist] def valid_out (s : S) : Bool :=
  (next_valid_out s)
/-- integration_3.v:7593-7605. -/
@[netlist] def vbits_to_cbits_data_out (s : S) : Nat :=
  I3Axis.vbits_to_cbits.data_out s.u_vbits_to_cbits
/-- integration_3.v:7618-7621. -/
@[netlist] def next_data_out (s : S) : Nat :=
  (vbits_to_cbits_data_out s)
/-- integration_3.v:7669. -/
@[netlist] def data_out (s : S) : Nat :=
  (next_data_out s)
/-- integration_3.v:7614-7617. -/
@[netlist] def next_vbits_to_cbits_busy_in (s : S) (busy_in : Bool) : Bool :=
  busy_in
/-- integration_3.v:7670. -/
@[netlist] def vbits_to_cbits_busy_in (s : S) (busy_in : Bool) : Bool :=
  (next_vbits_to_cbits_busy_in s busy_in)
/-- integration_3.v:7575-7592. -/
@[netlist] def integration_2_valid_out (s : S) : Bool :=
  integration_2.valid_out s.u_integration_2
/-- integration_3.v:7662-7665. -/
@[netlist] def next_vbits_to_cbits_valid_in (s : S) : Bool :=
  (integration_2_valid_out s)
/-- integration_3.v:7671. -/
@[netlist] def vbits_to_cbits_valid_in (s : S) : Bool :=
  (next_vbits_to_cbits_valid_in s)
/-- integration_3.v:7575-7592. -/
@[netlist] def integration_2_out_end (s : S) : Bool :=
  integration_2.out_end s.u_integration_2
/-- integration_3.v:7658-7661. -/
@[netlist] def next_vbits_to_cbits_in_end (s : S) : Bool :=
  (integration_2_out_end s)
/-- integration_3.v:7672. -/
@[netlist] def vbits_to_cbits_in_end (s : S) : Bool :=
  (next_vbits_to_cbits_in_end s)
/-- integration_3.v:7575-7592. -/
@[netlist] def integration_2_enc_out_ctr (s : S) : Nat :=
  integration_2.enc_out_ctr s.u_integration_2
/-- integration_3.v:7654-7657. -/
@[netlist] def next_vbits_to_cbits_enc_in_ctr (s : S) : Nat :=
  slc (integration_2_enc_out_ctr s) 0 6
/-- integration_3.v:7673. -/
@[netlist] def vbits_to_cbits_enc_in_ctr (s : S) : Nat :=
  (next_vbits_to_cbits_enc_in_ctr s)
/-- integration_3.v:7575-7592. -/
@[netlist] def integration_2_enc_out (s : S) : Nat :=
  integration_2.enc_out s.u_integration_2
/-- integration_3.v:7650-7653. -/
@[netlist] def next_vbits_to_cbits_enc_in (s : S) : Nat :=
  slc (integration_2_enc_out s) 0 48
/-- integration_3.v:7674. -/
@[netlist] def vbits_to_cbits_enc_in (s : S) : Nat :=
  (next_vbits_to_cbits_enc_in s)
/-- integration_3.v:7593-7605. -/
@[netlist] def vbits_to_cbits_latch_input (s : S) : Bool :=
  I3Axis.vbits_to_cbits.latch_input s.u_vbits_to_cbits
/-- integration_3.v:7646-7649. -/
@[netlist] def next_integration_2_latch_output (s : S) : Bool :=
  (vbits_to_cbits_latch_input s)
/-- integration_3.v:7675. -/
@[netlist] def integration_2_latch_output (s : S) : Bool :=
  (next_integration_2_latch_output s)
/-- integration_3.v:7642-7645. -/
@[netlist] def next_integration_2_valid_in (s : S) (valid_in : Bool) : Bool :=
  valid_in
/-- integration_3.v:7676. -/
@[netlist] def integration_2_valid_in (s : S) (valid_in : Bool) : Bool :=
  (next_integration_2_valid_in s valid_in)
/-- integration_3.v:7638-7641. -/
@[netlist] def next_integration_2_pixel_in_6 (s : S) (pixel_in_3 : Nat) : Nat :=
  pixel_in_3
/-- integration_3.v:7677. -/
@[netlist] def integration_2_pixel_in_6 (s : S) (pixel_in_3 : Nat) : Nat :=
  (next_integration_2_pixel_in_6 s pixel_in_3)
/-- integration_3.v:7634-7637. -/
@[netlist] def next_integration_2_pixel_in_5 (s : S) (pixel_in_2 : Nat) : Nat :=
  pixel_in_2
/-- integration_3.v:7678. -/
@[netlist] def integration_2_pixel_in_5 (s : S) (pixel_in_2 : Nat) : Nat :=
  (next_integration_2_pixel_in_5 s pixel_in_2)
/-- integration_3.v:7610-7613. -/
@[netlist] def next_integration_2_pixel_in_4 (s : S) (pixel_in_1 : Nat) : Nat :=
  pixel_in_1
/-- integration_3.v:7679. -/
@[netlist] def integration_2_pixel_in_4 (s : S) (pixel_in_1 : Nat) : Nat :=
  (next_integration_2_pixel_in_4 s pixel_in_1)
/-- integration_3.v:7606-7609. -/
@[netlist] def next_integration_2_pixel_in (s : S) (pixel_in : Nat) : Nat :=
  pixel_in
/-- integration_3.v:7680. -/
@[netlist] def integration_2_pixel_in (s : S) (pixel_in : Nat) : Nat :=
  (next_integration_2_pixel_in s pixel_in)
/-- integration_3.v:7575-7592. -/
@[netlist] def fend_out (s : S) : Bool :=
  integration_2.fend_out s.u_integration_2

/-- integration_3.v:7474-7681: one rising clock edge (`always @(posedge ...)`). -/
@[netlist] def step (s : S) (pixel_in_1 : Nat) (pixel_in_2 : Nat) (pixel_in_3 : Nat) (valid_in : Bool) (busy_in : Bool) (rst : Bool) (full_rst : Bool) (pixel_in : Nat) : S :=
  { u_integration_2 := integration_2.step s.u_integration_2 (integration_2_pixel_in s pixel_in) (integration_2_pixel_in_4 s pixel_in_1) (integration_2_pixel_in_5 s pixel_in_2) (integration_2_pixel_in_6 s pixel_in_3) (integration_2_latch_output s) rst full_rst (integration_2_valid_in s valid_in)
    u_vbits_to_cbits := I3Axis.vbits_to_cbits.step s.u_vbits_to_cbits (vbits_to_cbits_enc_in_ctr s) (vbits_to_cbits_in_end s) (vbits_to_cbits_valid_in s) (vbits_to_cbits_busy_in s busy_in) rst (vbits_to_cbits_enc_in s) }

/-- integration_3.v:7474-7681: the initial values given in the netlist. -/
def Init (s : S) : Prop :=
  integration_2.Init s.u_integration_2 ∧
  I3Axis.vbits_to_cbits.Init s.u_vbits_to_cbits

/-- integration_3.v:7474-7681: a state with these initial values; registers without one are 0. -/
def powerUp : S :=
  { u_integration_2 := integration_2.powerUp
    u_vbits_to_cbits := I3Axis.vbits_to_cbits.powerUp }

theorem powerUp_init : Init powerUp := ⟨integration_2.powerUp_init, I3Axis.vbits_to_cbits.powerUp_init⟩

end top

end Netlist.I3
