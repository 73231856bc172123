import Verif.Base
/-! The lines of `sql/hlr.sql`, copied, as the codes of their characters. -/
namespace Verif.Sql2c
open Verif

/-- sql/hlr.sql 1-94. -/
def hlrSqlCodes : List (List Nat) := [
  -- CREATE TABLE subscriber (
  [67, 82, 69, 65, 84, 69, 32, 84, 65, 66, 76, 69, 32, 115, 117, 98, 115, 99, 114, 105, 98, 101, 114, 32, 40],
  -- -- OsmoHLR's DB scheme is modelled roughly after TS 23.008 version 13.3.0
  [45, 45, 32, 79, 115, 109, 111, 72, 76, 82, 39, 115, 32, 68, 66, 32, 115, 99, 104, 101, 109, 101, 32, 105, 115, 32, 109, 111, 100, 101, 108, 108, 101, 100, 32, 114, 111, 117, 103, 104, 108, 121, 32, 97, 102, 116, 101, 114, 32, 84, 83, 32, 50, 51, 46, 48, 48, 56, 32, 118, 101, 114, 115, 105, 111, 110, 32, 49, 51, 46, 51, 46, 48],
  --   id    INTEGER PRIMARY KEY,
  [9, 105, 100, 9, 9, 73, 78, 84, 69, 71, 69, 82, 32, 80, 82, 73, 77, 65, 82, 89, 32, 75, 69, 89, 44],
  --   -- Chapter 2.1.1.1
  [9, 45, 45, 32, 67, 104, 97, 112, 116, 101, 114, 32, 50, 46, 49, 46, 49, 46, 49],
  --   imsi    VARCHAR(15) UNIQUE NOT NULL,
  [9, 105, 109, 115, 105, 9, 9, 86, 65, 82, 67, 72, 65, 82, 40, 49, 53, 41, 32, 85, 78, 73, 81, 85, 69, 32, 78, 79, 84, 32, 78, 85, 76, 76, 44],
  --   -- Chapter 2.1.2
  [9, 45, 45, 32, 67, 104, 97, 112, 116, 101, 114, 32, 50, 46, 49, 46, 50],
  --   msisdn    VARCHAR(15) UNIQUE,
  [9, 109, 115, 105, 115, 100, 110, 9, 9, 86, 65, 82, 67, 72, 65, 82, 40, 49, 53, 41, 32, 85, 78, 73, 81, 85, 69, 44],
  --   -- Chapter 2.2.3: Most recent / current IMEISV
  [9, 45, 45, 32, 67, 104, 97, 112, 116, 101, 114, 32, 50, 46, 50, 46, 51, 58, 32, 77, 111, 115, 116, 32, 114, 101, 99, 101, 110, 116, 32, 47, 32, 99, 117, 114, 114, 101, 110, 116, 32, 73, 77, 69, 73, 83, 86],
  --   imeisv    VARCHAR,
  [9, 105, 109, 101, 105, 115, 118, 9, 9, 86, 65, 82, 67, 72, 65, 82, 44],
  --   -- Chapter 2.1.9: Most recent / current IMEI
  [9, 45, 45, 32, 67, 104, 97, 112, 116, 101, 114, 32, 50, 46, 49, 46, 57, 58, 32, 77, 111, 115, 116, 32, 114, 101, 99, 101, 110, 116, 32, 47, 32, 99, 117, 114, 114, 101, 110, 116, 32, 73, 77, 69, 73],
  --   imei    VARCHAR(14),
  [9, 105, 109, 101, 105, 9, 9, 86, 65, 82, 67, 72, 65, 82, 40, 49, 52, 41, 44],
  --   -- Chapter 2.4.5
  [9, 45, 45, 32, 67, 104, 97, 112, 116, 101, 114, 32, 50, 46, 52, 46, 53],
  --   vlr_number  VARCHAR(15),
  [9, 118, 108, 114, 95, 110, 117, 109, 98, 101, 114, 9, 86, 65, 82, 67, 72, 65, 82, 40, 49, 53, 41, 44],
  --   -- Chapter 2.4.6
  [9, 45, 45, 32, 67, 104, 97, 112, 116, 101, 114, 32, 50, 46, 52, 46, 54],
  --   msc_number  VARCHAR(15),
  [9, 109, 115, 99, 95, 110, 117, 109, 98, 101, 114, 9, 86, 65, 82, 67, 72, 65, 82, 40, 49, 53, 41, 44],
  --   -- Chapter 2.4.8.1
  [9, 45, 45, 32, 67, 104, 97, 112, 116, 101, 114, 32, 50, 46, 52, 46, 56, 46, 49],
  --   sgsn_number  VARCHAR(15),
  [9, 115, 103, 115, 110, 95, 110, 117, 109, 98, 101, 114, 9, 86, 65, 82, 67, 72, 65, 82, 40, 49, 53, 41, 44],
  --   -- Chapter 2.13.10
  [9, 45, 45, 32, 67, 104, 97, 112, 116, 101, 114, 32, 50, 46, 49, 51, 46, 49, 48],
  --   sgsn_address  VARCHAR,
  [9, 115, 103, 115, 110, 95, 97, 100, 100, 114, 101, 115, 115, 9, 86, 65, 82, 67, 72, 65, 82, 44],
  --   -- Chapter 2.4.8.2
  [9, 45, 45, 32, 67, 104, 97, 112, 116, 101, 114, 32, 50, 46, 52, 46, 56, 46, 50],
  --   ggsn_number  VARCHAR(15),
  [9, 103, 103, 115, 110, 95, 110, 117, 109, 98, 101, 114, 9, 86, 65, 82, 67, 72, 65, 82, 40, 49, 53, 41, 44],
  --   -- Chapter 2.4.9.2
  [9, 45, 45, 32, 67, 104, 97, 112, 116, 101, 114, 32, 50, 46, 52, 46, 57, 46, 50],
  --   gmlc_number  VARCHAR(15),
  [9, 103, 109, 108, 99, 95, 110, 117, 109, 98, 101, 114, 9, 86, 65, 82, 67, 72, 65, 82, 40, 49, 53, 41, 44],
  --   -- Chapter 2.4.23
  [9, 45, 45, 32, 67, 104, 97, 112, 116, 101, 114, 32, 50, 46, 52, 46, 50, 51],
  --   smsc_number  VARCHAR(15),
  [9, 115, 109, 115, 99, 95, 110, 117, 109, 98, 101, 114, 9, 86, 65, 82, 67, 72, 65, 82, 40, 49, 53, 41, 44],
  --   -- Chapter 2.4.24
  [9, 45, 45, 32, 67, 104, 97, 112, 116, 101, 114, 32, 50, 46, 52, 46, 50, 52],
  --   periodic_lu_tmr  INTEGER,
  [9, 112, 101, 114, 105, 111, 100, 105, 99, 95, 108, 117, 95, 116, 109, 114, 9, 73, 78, 84, 69, 71, 69, 82, 44],
  --   -- Chapter 2.13.115
  [9, 45, 45, 32, 67, 104, 97, 112, 116, 101, 114, 32, 50, 46, 49, 51, 46, 49, 49, 53],
  --   periodic_rau_tau_tmr INTEGER,
  [9, 112, 101, 114, 105, 111, 100, 105, 99, 95, 114, 97, 117, 95, 116, 97, 117, 95, 116, 109, 114, 32, 73, 78, 84, 69, 71, 69, 82, 44],
  --   -- Chapter 2.1.1.2: network access mode
  [9, 45, 45, 32, 67, 104, 97, 112, 116, 101, 114, 32, 50, 46, 49, 46, 49, 46, 50, 58, 32, 110, 101, 116, 119, 111, 114, 107, 32, 97, 99, 99, 101, 115, 115, 32, 109, 111, 100, 101],
  --   nam_cs    BOOLEAN NOT NULL DEFAULT 1,
  [9, 110, 97, 109, 95, 99, 115, 9, 9, 66, 79, 79, 76, 69, 65, 78, 32, 78, 79, 84, 32, 78, 85, 76, 76, 32, 68, 69, 70, 65, 85, 76, 84, 32, 49, 44],
  --   nam_ps    BOOLEAN NOT NULL DEFAULT 1,
  [9, 110, 97, 109, 95, 112, 115, 9, 9, 66, 79, 79, 76, 69, 65, 78, 32, 78, 79, 84, 32, 78, 85, 76, 76, 32, 68, 69, 70, 65, 85, 76, 84, 32, 49, 44],
  --   -- Chapter 2.1.8
  [9, 45, 45, 32, 67, 104, 97, 112, 116, 101, 114, 32, 50, 46, 49, 46, 56],
  --   lmsi    INTEGER,
  [9, 108, 109, 115, 105, 9, 9, 73, 78, 84, 69, 71, 69, 82, 44],
  -- 
  [],
  --   -- The below purged flags might not even be stored non-volatile,
  [9, 45, 45, 32, 84, 104, 101, 32, 98, 101, 108, 111, 119, 32, 112, 117, 114, 103, 101, 100, 32, 102, 108, 97, 103, 115, 32, 109, 105, 103, 104, 116, 32, 110, 111, 116, 32, 101, 118, 101, 110, 32, 98, 101, 32, 115, 116, 111, 114, 101, 100, 32, 110, 111, 110, 45, 118, 111, 108, 97, 116, 105, 108, 101, 44],
  --   -- refer to TS 23.012 Chapter 3.6.1.4
  [9, 45, 45, 32, 114, 101, 102, 101, 114, 32, 116, 111, 32, 84, 83, 32, 50, 51, 46, 48, 49, 50, 32, 67, 104, 97, 112, 116, 101, 114, 32, 51, 46, 54, 46, 49, 46, 52],
  --   -- Chapter 2.7.5
  [9, 45, 45, 32, 67, 104, 97, 112, 116, 101, 114, 32, 50, 46, 55, 46, 53],
  --   ms_purged_cs  BOOLEAN NOT NULL DEFAULT 0,
  [9, 109, 115, 95, 112, 117, 114, 103, 101, 100, 95, 99, 115, 9, 66, 79, 79, 76, 69, 65, 78, 32, 78, 79, 84, 32, 78, 85, 76, 76, 32, 68, 69, 70, 65, 85, 76, 84, 32, 48, 44],
  --   -- Chapter 2.7.6
  [9, 45, 45, 32, 67, 104, 97, 112, 116, 101, 114, 32, 50, 46, 55, 46, 54],
  --   ms_purged_ps  BOOLEAN NOT NULL DEFAULT 0,
  [9, 109, 115, 95, 112, 117, 114, 103, 101, 100, 95, 112, 115, 9, 66, 79, 79, 76, 69, 65, 78, 32, 78, 79, 84, 32, 78, 85, 76, 76, 32, 68, 69, 70, 65, 85, 76, 84, 32, 48, 44],
  -- 
  [],
  --   -- Timestamp of last location update seen from subscriber
  [9, 45, 45, 32, 84, 105, 109, 101, 115, 116, 97, 109, 112, 32, 111, 102, 32, 108, 97, 115, 116, 32, 108, 111, 99, 97, 116, 105, 111, 110, 32, 117, 112, 100, 97, 116, 101, 32, 115, 101, 101, 110, 32, 102, 114, 111, 109, 32, 115, 117, 98, 115, 99, 114, 105, 98, 101, 114],
  --   -- The value is a string which encodes a UTC timestamp in granularity of seconds.
  [9, 45, 45, 32, 84, 104, 101, 32, 118, 97, 108, 117, 101, 32, 105, 115, 32, 97, 32, 115, 116, 114, 105, 110, 103, 32, 119, 104, 105, 99, 104, 32, 101, 110, 99, 111, 100, 101, 115, 32, 97, 32, 85, 84, 67, 32, 116, 105, 109, 101, 115, 116, 97, 109, 112, 32, 105, 110, 32, 103, 114, 97, 110, 117, 108, 97, 114, 105, 116, 121, 32, 111, 102, 32, 115, 101, 99, 111, 110, 100, 115, 46],
  --   last_lu_seen TIMESTAMP default NULL,
  [9, 108, 97, 115, 116, 95, 108, 117, 95, 115, 101, 101, 110, 32, 84, 73, 77, 69, 83, 84, 65, 77, 80, 32, 100, 101, 102, 97, 117, 108, 116, 32, 78, 85, 76, 76, 44],
  --   last_lu_seen_ps TIMESTAMP default NULL,
  [9, 108, 97, 115, 116, 95, 108, 117, 95, 115, 101, 101, 110, 95, 112, 115, 32, 84, 73, 77, 69, 83, 84, 65, 77, 80, 32, 100, 101, 102, 97, 117, 108, 116, 32, 78, 85, 76, 76, 44],
  -- 
  [],
  --   -- When a LU was received via a proxy, that proxy's hlr_number is stored here,
  [9, 45, 45, 32, 87, 104, 101, 110, 32, 97, 32, 76, 85, 32, 119, 97, 115, 32, 114, 101, 99, 101, 105, 118, 101, 100, 32, 118, 105, 97, 32, 97, 32, 112, 114, 111, 120, 121, 44, 32, 116, 104, 97, 116, 32, 112, 114, 111, 120, 121, 39, 115, 32, 104, 108, 114, 95, 110, 117, 109, 98, 101, 114, 32, 105, 115, 32, 115, 116, 111, 114, 101, 100, 32, 104, 101, 114, 101, 44],
  --   -- while vlr_number reflects the MSC on the far side of that proxy.
  [9, 45, 45, 32, 119, 104, 105, 108, 101, 32, 118, 108, 114, 95, 110, 117, 109, 98, 101, 114, 32, 114, 101, 102, 108, 101, 99, 116, 115, 32, 116, 104, 101, 32, 77, 83, 67, 32, 111, 110, 32, 116, 104, 101, 32, 102, 97, 114, 32, 115, 105, 100, 101, 32, 111, 102, 32, 116, 104, 97, 116, 32, 112, 114, 111, 120, 121, 46],
  --   vlr_via_proxy  VARCHAR,
  [9, 118, 108, 114, 95, 118, 105, 97, 95, 112, 114, 111, 120, 121, 9, 86, 65, 82, 67, 72, 65, 82, 44],
  --   sgsn_via_proxy  VARCHAR
  [9, 115, 103, 115, 110, 95, 118, 105, 97, 95, 112, 114, 111, 120, 121, 9, 86, 65, 82, 67, 72, 65, 82],
  -- );
  [41, 59],
  -- 
  [],
  -- CREATE TABLE subscriber_apn (
  [67, 82, 69, 65, 84, 69, 32, 84, 65, 66, 76, 69, 32, 115, 117, 98, 115, 99, 114, 105, 98, 101, 114, 95, 97, 112, 110, 32, 40],
  --   subscriber_id  INTEGER,    -- subscriber.id
  [9, 115, 117, 98, 115, 99, 114, 105, 98, 101, 114, 95, 105, 100, 9, 73, 78, 84, 69, 71, 69, 82, 44, 9, 9, 45, 45, 32, 115, 117, 98, 115, 99, 114, 105, 98, 101, 114, 46, 105, 100],
  --   apn    VARCHAR(256) NOT NULL
  [9, 97, 112, 110, 9, 9, 86, 65, 82, 67, 72, 65, 82, 40, 50, 53, 54, 41, 32, 78, 79, 84, 32, 78, 85, 76, 76],
  -- );
  [41, 59],
  -- 
  [],
  -- CREATE TABLE subscriber_multi_msisdn (
  [67, 82, 69, 65, 84, 69, 32, 84, 65, 66, 76, 69, 32, 115, 117, 98, 115, 99, 114, 105, 98, 101, 114, 95, 109, 117, 108, 116, 105, 95, 109, 115, 105, 115, 100, 110, 32, 40],
  -- -- Chapter 2.1.3
  [45, 45, 32, 67, 104, 97, 112, 116, 101, 114, 32, 50, 46, 49, 46, 51],
  --   subscriber_id  INTEGER,    -- subscriber.id
  [9, 115, 117, 98, 115, 99, 114, 105, 98, 101, 114, 95, 105, 100, 9, 73, 78, 84, 69, 71, 69, 82, 44, 9, 9, 45, 45, 32, 115, 117, 98, 115, 99, 114, 105, 98, 101, 114, 46, 105, 100],
  --   msisdn    VARCHAR(15) NOT NULL
  [9, 109, 115, 105, 115, 100, 110, 9, 9, 86, 65, 82, 67, 72, 65, 82, 40, 49, 53, 41, 32, 78, 79, 84, 32, 78, 85, 76, 76],
  -- );
  [41, 59],
  -- 
  [],
  -- CREATE TABLE auc_2g (
  [67, 82, 69, 65, 84, 69, 32, 84, 65, 66, 76, 69, 32, 97, 117, 99, 95, 50, 103, 32, 40],
  --   subscriber_id  INTEGER PRIMARY KEY,  -- subscriber.id
  [9, 115, 117, 98, 115, 99, 114, 105, 98, 101, 114, 95, 105, 100, 9, 73, 78, 84, 69, 71, 69, 82, 32, 80, 82, 73, 77, 65, 82, 89, 32, 75, 69, 89, 44, 9, 45, 45, 32, 115, 117, 98, 115, 99, 114, 105, 98, 101, 114, 46, 105, 100],
  --   algo_id_2g  INTEGER NOT NULL,  -- enum osmo_auth_algo value
  [9, 97, 108, 103, 111, 95, 105, 100, 95, 50, 103, 9, 73, 78, 84, 69, 71, 69, 82, 32, 78, 79, 84, 32, 78, 85, 76, 76, 44, 9, 45, 45, 32, 101, 110, 117, 109, 32, 111, 115, 109, 111, 95, 97, 117, 116, 104, 95, 97, 108, 103, 111, 32, 118, 97, 108, 117, 101],
  --   ki    VARCHAR(32) NOT NULL  -- hex string: subscriber's secret key (128bit)
  [9, 107, 105, 9, 9, 86, 65, 82, 67, 72, 65, 82, 40, 51, 50, 41, 32, 78, 79, 84, 32, 78, 85, 76, 76, 9, 45, 45, 32, 104, 101, 120, 32, 115, 116, 114, 105, 110, 103, 58, 32, 115, 117, 98, 115, 99, 114, 105, 98, 101, 114, 39, 115, 32, 115, 101, 99, 114, 101, 116, 32, 107, 101, 121, 32, 40, 49, 50, 56, 98, 105, 116, 41],
  -- );
  [41, 59],
  -- 
  [],
  -- CREATE TABLE auc_3g (
  [67, 82, 69, 65, 84, 69, 32, 84, 65, 66, 76, 69, 32, 97, 117, 99, 95, 51, 103, 32, 40],
  --   subscriber_id  INTEGER PRIMARY KEY,  -- subscriber.id
  [9, 115, 117, 98, 115, 99, 114, 105, 98, 101, 114, 95, 105, 100, 9, 73, 78, 84, 69, 71, 69, 82, 32, 80, 82, 73, 77, 65, 82, 89, 32, 75, 69, 89, 44, 9, 45, 45, 32, 115, 117, 98, 115, 99, 114, 105, 98, 101, 114, 46, 105, 100],
  --   algo_id_3g  INTEGER NOT NULL,  -- enum osmo_auth_algo value
  [9, 97, 108, 103, 111, 95, 105, 100, 95, 51, 103, 9, 73, 78, 84, 69, 71, 69, 82, 32, 78, 79, 84, 32, 78, 85, 76, 76, 44, 9, 45, 45, 32, 101, 110, 117, 109, 32, 111, 115, 109, 111, 95, 97, 117, 116, 104, 95, 97, 108, 103, 111, 32, 118, 97, 108, 117, 101],
  --   k    VARCHAR(64) NOT NULL,  -- hex string: subscriber's secret key (128/256bit)
  [9, 107, 9, 9, 86, 65, 82, 67, 72, 65, 82, 40, 54, 52, 41, 32, 78, 79, 84, 32, 78, 85, 76, 76, 44, 9, 45, 45, 32, 104, 101, 120, 32, 115, 116, 114, 105, 110, 103, 58, 32, 115, 117, 98, 115, 99, 114, 105, 98, 101, 114, 39, 115, 32, 115, 101, 99, 114, 101, 116, 32, 107, 101, 121, 32, 40, 49, 50, 56, 47, 50, 53, 54, 98, 105, 116, 41],
  --   op    VARCHAR(64),    -- hex string: operator's secret key (128/256bit)
  [9, 111, 112, 9, 9, 86, 65, 82, 67, 72, 65, 82, 40, 54, 52, 41, 44, 9, 9, 45, 45, 32, 104, 101, 120, 32, 115, 116, 114, 105, 110, 103, 58, 32, 111, 112, 101, 114, 97, 116, 111, 114, 39, 115, 32, 115, 101, 99, 114, 101, 116, 32, 107, 101, 121, 32, 40, 49, 50, 56, 47, 50, 53, 54, 98, 105, 116, 41],
  --   opc    VARCHAR(64),    -- hex string: derived from OP and K (128/256bit)
  [9, 111, 112, 99, 9, 9, 86, 65, 82, 67, 72, 65, 82, 40, 54, 52, 41, 44, 9, 9, 45, 45, 32, 104, 101, 120, 32, 115, 116, 114, 105, 110, 103, 58, 32, 100, 101, 114, 105, 118, 101, 100, 32, 102, 114, 111, 109, 32, 79, 80, 32, 97, 110, 100, 32, 75, 32, 40, 49, 50, 56, 47, 50, 53, 54, 98, 105, 116, 41],
  --   sqn    INTEGER NOT NULL DEFAULT 0,  -- sequence number of key usage
  [9, 115, 113, 110, 9, 9, 73, 78, 84, 69, 71, 69, 82, 32, 78, 79, 84, 32, 78, 85, 76, 76, 32, 68, 69, 70, 65, 85, 76, 84, 32, 48, 44, 9, 45, 45, 32, 115, 101, 113, 117, 101, 110, 99, 101, 32, 110, 117, 109, 98, 101, 114, 32, 111, 102, 32, 107, 101, 121, 32, 117, 115, 97, 103, 101],
  --   -- nr of index bits at lower SQN end
  [9, 45, 45, 32, 110, 114, 32, 111, 102, 32, 105, 110, 100, 101, 120, 32, 98, 105, 116, 115, 32, 97, 116, 32, 108, 111, 119, 101, 114, 32, 83, 81, 78, 32, 101, 110, 100],
  --   ind_bitlen  INTEGER NOT NULL DEFAULT 5
  [9, 105, 110, 100, 95, 98, 105, 116, 108, 101, 110, 9, 73, 78, 84, 69, 71, 69, 82, 32, 78, 79, 84, 32, 78, 85, 76, 76, 32, 68, 69, 70, 65, 85, 76, 84, 32, 53],
  -- );
  [41, 59],
  -- 
  [],
  -- CREATE TABLE ind (
  [67, 82, 69, 65, 84, 69, 32, 84, 65, 66, 76, 69, 32, 105, 110, 100, 32, 40],
  --   -- 3G auth IND pool to be used for this VLR
  [9, 45, 45, 32, 51, 71, 32, 97, 117, 116, 104, 32, 73, 78, 68, 32, 112, 111, 111, 108, 32, 116, 111, 32, 98, 101, 32, 117, 115, 101, 100, 32, 102, 111, 114, 32, 116, 104, 105, 115, 32, 86, 76, 82],
  --   ind     INTEGER PRIMARY KEY,
  [9, 105, 110, 100, 32, 32, 32, 32, 32, 73, 78, 84, 69, 71, 69, 82, 32, 80, 82, 73, 77, 65, 82, 89, 32, 75, 69, 89, 44],
  --   -- VLR identification, usually the GSUP source_name
  [9, 45, 45, 32, 86, 76, 82, 32, 105, 100, 101, 110, 116, 105, 102, 105, 99, 97, 116, 105, 111, 110, 44, 32, 117, 115, 117, 97, 108, 108, 121, 32, 116, 104, 101, 32, 71, 83, 85, 80, 32, 115, 111, 117, 114, 99, 101, 95, 110, 97, 109, 101],
  --   vlr     TEXT NOT NULL,
  [9, 118, 108, 114, 32, 32, 32, 32, 32, 84, 69, 88, 84, 32, 78, 79, 84, 32, 78, 85, 76, 76, 44],
  --   UNIQUE (vlr)
  [9, 85, 78, 73, 81, 85, 69, 32, 40, 118, 108, 114, 41],
  -- );
  [41, 59],
  -- 
  [],
  -- CREATE UNIQUE INDEX idx_subscr_imsi ON subscriber (imsi);
  [67, 82, 69, 65, 84, 69, 32, 85, 78, 73, 81, 85, 69, 32, 73, 78, 68, 69, 88, 32, 105, 100, 120, 95, 115, 117, 98, 115, 99, 114, 95, 105, 109, 115, 105, 32, 79, 78, 32, 115, 117, 98, 115, 99, 114, 105, 98, 101, 114, 32, 40, 105, 109, 115, 105, 41, 59],
  -- 
  [],
  -- -- Set HLR database schema version number
  [45, 45, 32, 83, 101, 116, 32, 72, 76, 82, 32, 100, 97, 116, 97, 98, 97, 115, 101, 32, 115, 99, 104, 101, 109, 97, 32, 118, 101, 114, 115, 105, 111, 110, 32, 110, 117, 109, 98, 101, 114],
  -- -- Note: This constant is currently duplicated in src/db.c and must be kept in sync!
  [45, 45, 32, 78, 111, 116, 101, 58, 32, 84, 104, 105, 115, 32, 99, 111, 110, 115, 116, 97, 110, 116, 32, 105, 115, 32, 99, 117, 114, 114, 101, 110, 116, 108, 121, 32, 100, 117, 112, 108, 105, 99, 97, 116, 101, 100, 32, 105, 110, 32, 115, 114, 99, 47, 100, 98, 46, 99, 32, 97, 110, 100, 32, 109, 117, 115, 116, 32, 98, 101, 32, 107, 101, 112, 116, 32, 105, 110, 32, 115, 121, 110, 99, 33],
  -- PRAGMA user_version = 7;
  [80, 82, 65, 71, 77, 65, 32, 117, 115, 101, 114, 95, 118, 101, 114, 115, 105, 111, 110, 32, 61, 32, 55, 59]]

/-- sql/hlr.sql 1-94, as bytes. -/
def hlrSql : List Bytes := hlrSqlCodes.map fun l => l.map (·.toUInt8)

end Verif.Sql2c
