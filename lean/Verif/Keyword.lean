/-
The keyword constants and the two keyword tables of `parser/keyword.go`, and the interval units
of `parser/type.go`.  Generated from the source by a script; each constant cites its line.
-/
import Verif.Bytes

namespace Verif

namespace Kw

/-- `KeywordAdd`, parser/keyword.go:4. -/
def Add : Str := b!"ADD"
/-- `KeywordAdmin`, parser/keyword.go:5. -/
def Admin : Str := b!"ADMIN"
/-- `KeywordAfter`, parser/keyword.go:6. -/
def After : Str := b!"AFTER"
/-- `KeywordAlias`, parser/keyword.go:7. -/
def Alias : Str := b!"ALIAS"
/-- `KeywordAll`, parser/keyword.go:8. -/
def All : Str := b!"ALL"
/-- `KeywordAlter`, parser/keyword.go:9. -/
def Alter : Str := b!"ALTER"
/-- `KeywordAnd`, parser/keyword.go:10. -/
def And : Str := b!"AND"
/-- `KeywordAnti`, parser/keyword.go:11. -/
def Anti : Str := b!"ANTI"
/-- `KeywordAny`, parser/keyword.go:12. -/
def Any : Str := b!"ANY"
/-- `KeywordAppend`, parser/keyword.go:13. -/
def Append : Str := b!"APPEND"
/-- `KeywordApply`, parser/keyword.go:14. -/
def Apply : Str := b!"APPLY"
/-- `KeywordArray`, parser/keyword.go:15. -/
def Array : Str := b!"ARRAY"
/-- `KeywordAs`, parser/keyword.go:16. -/
def As : Str := b!"AS"
/-- `KeywordAsc`, parser/keyword.go:17. -/
def Asc : Str := b!"ASC"
/-- `KeywordAscending`, parser/keyword.go:18. -/
def Ascending : Str := b!"ASCENDING"
/-- `KeywordAsof`, parser/keyword.go:19. -/
def Asof : Str := b!"ASOF"
/-- `KeywordAst`, parser/keyword.go:20. -/
def Ast : Str := b!"AST"
/-- `KeywordAsync`, parser/keyword.go:21. -/
def Async : Str := b!"ASYNC"
/-- `KeywordAttach`, parser/keyword.go:22. -/
def Attach : Str := b!"ATTACH"
/-- `KeywordBetween`, parser/keyword.go:23. -/
def Between : Str := b!"BETWEEN"
/-- `KeywordBoth`, parser/keyword.go:24. -/
def Both : Str := b!"BOTH"
/-- `KeywordBy`, parser/keyword.go:25. -/
def By : Str := b!"BY"
/-- `KeywordCache`, parser/keyword.go:26. -/
def Cache : Str := b!"CACHE"
/-- `KeywordCase`, parser/keyword.go:27. -/
def Case : Str := b!"CASE"
/-- `KeywordCast`, parser/keyword.go:28. -/
def Cast : Str := b!"CAST"
/-- `KeywordCheck`, parser/keyword.go:29. -/
def Check : Str := b!"CHECK"
/-- `KeywordClear`, parser/keyword.go:30. -/
def Clear : Str := b!"CLEAR"
/-- `KeywordCluster`, parser/keyword.go:31. -/
def Cluster : Str := b!"CLUSTER"
/-- `KeywordCodec`, parser/keyword.go:32. -/
def Codec : Str := b!"CODEC"
/-- `KeywordCollate`, parser/keyword.go:33. -/
def Collate : Str := b!"COLLATE"
/-- `KeywordCollection`, parser/keyword.go:34. -/
def Collection : Str := b!"COLLECTION"
/-- `KeywordColumn`, parser/keyword.go:35. -/
def Column : Str := b!"COLUMN"
/-- `KeywordColumns`, parser/keyword.go:36. -/
def Columns : Str := b!"COLUMNS"
/-- `KeywordComment`, parser/keyword.go:37. -/
def Comment : Str := b!"COMMENT"
/-- `KeywordCompiled`, parser/keyword.go:38. -/
def Compiled : Str := b!"COMPILED"
/-- `KeywordConfig`, parser/keyword.go:39. -/
def Config : Str := b!"CONFIG"
/-- `KeywordConstraint`, parser/keyword.go:40. -/
def Constraint : Str := b!"CONSTRAINT"
/-- `KeywordCreate`, parser/keyword.go:41. -/
def Create : Str := b!"CREATE"
/-- `KeywordCross`, parser/keyword.go:42. -/
def Cross : Str := b!"CROSS"
/-- `KeywordCube`, parser/keyword.go:43. -/
def Cube : Str := b!"CUBE"
/-- `KeywordCurrent`, parser/keyword.go:44. -/
def Current : Str := b!"CURRENT"
/-- `KeywordDatabase`, parser/keyword.go:45. -/
def Database : Str := b!"DATABASE"
/-- `KeywordDatabases`, parser/keyword.go:46. -/
def Databases : Str := b!"DATABASES"
/-- `KeywordDate`, parser/keyword.go:47. -/
def Date : Str := b!"DATE"
/-- `KeywordDay`, parser/keyword.go:48. -/
def Day : Str := b!"DAY"
/-- `KeywordDeduplicate`, parser/keyword.go:49. -/
def Deduplicate : Str := b!"DEDUPLICATE"
/-- `KeywordDefault`, parser/keyword.go:50. -/
def Default : Str := b!"DEFAULT"
/-- `KeywordDelay`, parser/keyword.go:51. -/
def Delay : Str := b!"DELAY"
/-- `KeywordDelete`, parser/keyword.go:52. -/
def Delete : Str := b!"DELETE"
/-- `KeywordDepends`, parser/keyword.go:53. -/
def Depends : Str := b!"DEPENDS"
/-- `KeywordDesc`, parser/keyword.go:54. -/
def Desc : Str := b!"DESC"
/-- `KeywordDescending`, parser/keyword.go:55. -/
def Descending : Str := b!"DESCENDING"
/-- `KeywordDescribe`, parser/keyword.go:56. -/
def Describe : Str := b!"DESCRIBE"
/-- `KeywordDetach`, parser/keyword.go:57. -/
def Detach : Str := b!"DETACH"
/-- `KeywordDetached`, parser/keyword.go:58. -/
def Detached : Str := b!"DETACHED"
/-- `KeywordDictionaries`, parser/keyword.go:59. -/
def Dictionaries : Str := b!"DICTIONARIES"
/-- `KeywordDictionary`, parser/keyword.go:60. -/
def Dictionary : Str := b!"DICTIONARY"
/-- `KeywordDisk`, parser/keyword.go:61. -/
def Disk : Str := b!"DISK"
/-- `KeywordDistinct`, parser/keyword.go:62. -/
def Distinct : Str := b!"DISTINCT"
/-- `KeywordDistributed`, parser/keyword.go:63. -/
def Distributed : Str := b!"DISTRIBUTED"
/-- `KeywordDrop`, parser/keyword.go:64. -/
def Drop : Str := b!"DROP"
/-- `KeywordDNS`, parser/keyword.go:65. -/
def DNS : Str := b!"DNS"
/-- `KeywordElse`, parser/keyword.go:66. -/
def Else : Str := b!"ELSE"
/-- `KeywordEmbedded`, parser/keyword.go:67. -/
def Embedded : Str := b!"EMBEDDED"
/-- `KeywordEmpty`, parser/keyword.go:68. -/
def Empty : Str := b!"EMPTY"
/-- `KeywordEnd`, parser/keyword.go:69. -/
def End : Str := b!"END"
/-- `KeywordEngine`, parser/keyword.go:70. -/
def Engine : Str := b!"ENGINE"
/-- `KeywordEstimate`, parser/keyword.go:71. -/
def Estimate : Str := b!"ESTIMATE"
/-- `KeywordEvents`, parser/keyword.go:72. -/
def Events : Str := b!"EVENTS"
/-- `KeywordEvery`, parser/keyword.go:73. -/
def Every : Str := b!"EVERY"
/-- `KeywordExcept`, parser/keyword.go:74. -/
def Except : Str := b!"EXCEPT"
/-- `KeywordExists`, parser/keyword.go:75. -/
def Exists : Str := b!"EXISTS"
/-- `KeywordExplain`, parser/keyword.go:76. -/
def Explain : Str := b!"EXPLAIN"
/-- `KeywordExpression`, parser/keyword.go:77. -/
def Expression : Str := b!"EXPRESSION"
/-- `KeywordExtract`, parser/keyword.go:78. -/
def Extract : Str := b!"EXTRACT"
/-- `KeywordFalse`, parser/keyword.go:79. -/
def False : Str := b!"FALSE"
/-- `KeywordFetches`, parser/keyword.go:80. -/
def Fetches : Str := b!"FETCHES"
/-- `KeywordFileSystem`, parser/keyword.go:81. -/
def FileSystem : Str := b!"FILESYSTEM"
/-- `KeywordFill`, parser/keyword.go:82. -/
def Fill : Str := b!"FILL"
/-- `KeywordFinal`, parser/keyword.go:83. -/
def Final : Str := b!"FINAL"
/-- `KeywordFirst`, parser/keyword.go:84. -/
def First : Str := b!"FIRST"
/-- `KeywordFlush`, parser/keyword.go:85. -/
def Flush : Str := b!"FLUSH"
/-- `KeywordFollowing`, parser/keyword.go:86. -/
def Following : Str := b!"FOLLOWING"
/-- `KeywordFor`, parser/keyword.go:87. -/
def For : Str := b!"FOR"
/-- `KeywordFormat`, parser/keyword.go:88. -/
def Format : Str := b!"FORMAT"
/-- `KeywordFreeze`, parser/keyword.go:89. -/
def Freeze : Str := b!"FREEZE"
/-- `KeywordFrom`, parser/keyword.go:90. -/
def From : Str := b!"FROM"
/-- `KeywordFull`, parser/keyword.go:91. -/
def Full : Str := b!"FULL"
/-- `KeywordFunction`, parser/keyword.go:92. -/
def Function : Str := b!"FUNCTION"
/-- `KeywordFunctions`, parser/keyword.go:93. -/
def Functions : Str := b!"FUNCTIONS"
/-- `KeywordGlobal`, parser/keyword.go:94. -/
def Global : Str := b!"GLOBAL"
/-- `KeywordGrant`, parser/keyword.go:95. -/
def Grant : Str := b!"GRANT"
/-- `KeywordGrantees`, parser/keyword.go:96. -/
def Grantees : Str := b!"GRANTEES"
/-- `KeywordGranularity`, parser/keyword.go:97. -/
def Granularity : Str := b!"GRANULARITY"
/-- `KeywordGroup`, parser/keyword.go:98. -/
def Group : Str := b!"GROUP"
/-- `KeywordGrouping`, parser/keyword.go:99. -/
def Grouping : Str := b!"GROUPING"
/-- `KeywordHaving`, parser/keyword.go:100. -/
def Having : Str := b!"HAVING"
/-- `KeywordHierarchical`, parser/keyword.go:101. -/
def Hierarchical : Str := b!"HIERARCHICAL"
/-- `KeywordHost`, parser/keyword.go:102. -/
def Host : Str := b!"HOST"
/-- `KeywordHour`, parser/keyword.go:103. -/
def Hour : Str := b!"HOUR"
/-- `KeywordId`, parser/keyword.go:104. -/
def Id : Str := b!"ID"
/-- `KeywordIdentified`, parser/keyword.go:105. -/
def Identified : Str := b!"IDENTIFIED"
/-- `KeywordIf`, parser/keyword.go:106. -/
def If : Str := b!"IF"
/-- `KeywordIlike`, parser/keyword.go:107. -/
def Ilike : Str := b!"ILIKE"
/-- `KeywordIn`, parser/keyword.go:108. -/
def In : Str := b!"IN"
/-- `KeywordIndex`, parser/keyword.go:109. -/
def Index : Str := b!"INDEX"
/-- `KeywordInf`, parser/keyword.go:110. -/
def Inf : Str := b!"INF"
/-- `KeywordInjective`, parser/keyword.go:111. -/
def Injective : Str := b!"INJECTIVE"
/-- `KeywordInner`, parser/keyword.go:112. -/
def Inner : Str := b!"INNER"
/-- `KeywordInsert`, parser/keyword.go:113. -/
def Insert : Str := b!"INSERT"
/-- `KeywordIntersect`, parser/keyword.go:114. -/
def Intersect : Str := b!"INTERSECT"
/-- `KeywordInterval`, parser/keyword.go:115. -/
def Interval : Str := b!"INTERVAL"
/-- `KeywordInterpolate`, parser/keyword.go:116. -/
def Interpolate : Str := b!"INTERPOLATE"
/-- `KeywordInto`, parser/keyword.go:117. -/
def Into : Str := b!"INTO"
/-- `KeywordIp`, parser/keyword.go:118. -/
def Ip : Str := b!"IP"
/-- `KeywordIs`, parser/keyword.go:119. -/
def Is : Str := b!"IS"
/-- `KeywordIs_object_id`, parser/keyword.go:120. -/
def Is_object_id : Str := b!"IS_OBJECT_ID"
/-- `KeywordJoin`, parser/keyword.go:121. -/
def Join : Str := b!"JOIN"
/-- `KeywordJSON`, parser/keyword.go:122. -/
def JSON : Str := b!"JSON"
/-- `KeywordKey`, parser/keyword.go:123. -/
def Key : Str := b!"KEY"
/-- `KeywordKill`, parser/keyword.go:124. -/
def Kill : Str := b!"KILL"
/-- `KeywordKerberos`, parser/keyword.go:125. -/
def Kerberos : Str := b!"KERBEROS"
/-- `KeywordLast`, parser/keyword.go:126. -/
def Last : Str := b!"LAST"
/-- `KeywordLayout`, parser/keyword.go:127. -/
def Layout : Str := b!"LAYOUT"
/-- `KeywordLdap`, parser/keyword.go:128. -/
def Ldap : Str := b!"LDAP"
/-- `KeywordLeading`, parser/keyword.go:129. -/
def Leading : Str := b!"LEADING"
/-- `KeywordLeft`, parser/keyword.go:130. -/
def Left : Str := b!"LEFT"
/-- `KeywordLifetime`, parser/keyword.go:131. -/
def Lifetime : Str := b!"LIFETIME"
/-- `KeywordLike`, parser/keyword.go:132. -/
def Like : Str := b!"LIKE"
/-- `KeywordLimit`, parser/keyword.go:133. -/
def Limit : Str := b!"LIMIT"
/-- `KeywordLive`, parser/keyword.go:134. -/
def Live : Str := b!"LIVE"
/-- `KeywordLocal`, parser/keyword.go:135. -/
def Local : Str := b!"LOCAL"
/-- `KeywordLogs`, parser/keyword.go:136. -/
def Logs : Str := b!"LOGS"
/-- `KeywordMark`, parser/keyword.go:137. -/
def Mark : Str := b!"MARK"
/-- `KeywordMaterialize`, parser/keyword.go:138. -/
def Materialize : Str := b!"MATERIALIZE"
/-- `KeywordMaterialized`, parser/keyword.go:139. -/
def Materialized : Str := b!"MATERIALIZED"
/-- `KeywordMax`, parser/keyword.go:140. -/
def Max : Str := b!"MAX"
/-- `KeywordMerges`, parser/keyword.go:141. -/
def Merges : Str := b!"MERGES"
/-- `KeywordMin`, parser/keyword.go:142. -/
def Min : Str := b!"MIN"
/-- `KeywordMinute`, parser/keyword.go:143. -/
def Minute : Str := b!"MINUTE"
/-- `KeywordModify`, parser/keyword.go:144. -/
def Modify : Str := b!"MODIFY"
/-- `KeywordMonth`, parser/keyword.go:145. -/
def Month : Str := b!"MONTH"
/-- `KeywordMove`, parser/keyword.go:146. -/
def Move : Str := b!"MOVE"
/-- `KeywordMoves`, parser/keyword.go:147. -/
def Moves : Str := b!"MOVES"
/-- `KeywordMutation`, parser/keyword.go:148. -/
def Mutation : Str := b!"MUTATION"
/-- `KeywordName`, parser/keyword.go:149. -/
def Name : Str := b!"NAME"
/-- `KeywordNamed`, parser/keyword.go:150. -/
def Named : Str := b!"NAMED"
/-- `KeywordNan_sql`, parser/keyword.go:151. -/
def Nan_sql : Str := b!"NAN_SQL"
/-- `KeywordNo`, parser/keyword.go:152. -/
def No : Str := b!"NO"
/-- `KeywordNone`, parser/keyword.go:153. -/
def None : Str := b!"NONE"
/-- `KeywordNot`, parser/keyword.go:154. -/
def Not : Str := b!"NOT"
/-- `KeywordNull`, parser/keyword.go:155. -/
def Null : Str := b!"NULL"
/-- `KeywordNulls`, parser/keyword.go:156. -/
def Nulls : Str := b!"NULLS"
/-- `KeywordOffset`, parser/keyword.go:157. -/
def Offset : Str := b!"OFFSET"
/-- `KeywordOn`, parser/keyword.go:158. -/
def On : Str := b!"ON"
/-- `KeywordOptimize`, parser/keyword.go:159. -/
def Optimize : Str := b!"OPTIMIZE"
/-- `KeywordOption`, parser/keyword.go:160. -/
def Option : Str := b!"OPTION"
/-- `KeywordOr`, parser/keyword.go:161. -/
def Or : Str := b!"OR"
/-- `KeywordOrder`, parser/keyword.go:162. -/
def Order : Str := b!"ORDER"
/-- `KeywordOverridable`, parser/keyword.go:163. -/
def Overridable : Str := b!"OVERRIDABLE"
/-- `KeywordOuter`, parser/keyword.go:164. -/
def Outer : Str := b!"OUTER"
/-- `KeywordOutfile`, parser/keyword.go:165. -/
def Outfile : Str := b!"OUTFILE"
/-- `KeywordOver`, parser/keyword.go:166. -/
def Over : Str := b!"OVER"
/-- `KeywordOverlay`, parser/keyword.go:167. -/
def Overlay : Str := b!"OVERLAY"
/-- `KeywordOverlayUTF8`, parser/keyword.go:168. -/
def OverlayUTF8 : Str := b!"OVERLAYUTF8"
/-- `KeywordPartition`, parser/keyword.go:169. -/
def Partition : Str := b!"PARTITION"
/-- `KeywordPlacing`, parser/keyword.go:170. -/
def Placing : Str := b!"PLACING"
/-- `KeywordPipeline`, parser/keyword.go:171. -/
def Pipeline : Str := b!"PIPELINE"
/-- `KeywordPolicy`, parser/keyword.go:172. -/
def Policy : Str := b!"POLICY"
/-- `KeywordPopulate`, parser/keyword.go:173. -/
def Populate : Str := b!"POPULATE"
/-- `KeywordPreceding`, parser/keyword.go:174. -/
def Preceding : Str := b!"PRECEDING"
/-- `KeywordPrewhere`, parser/keyword.go:175. -/
def Prewhere : Str := b!"PREWHERE"
/-- `KeywordPrimary`, parser/keyword.go:176. -/
def Primary : Str := b!"PRIMARY"
/-- `KeywordProjection`, parser/keyword.go:177. -/
def Projection : Str := b!"PROJECTION"
/-- `KeywordQuarter`, parser/keyword.go:178. -/
def Quarter : Str := b!"QUARTER"
/-- `KeywordQuery`, parser/keyword.go:179. -/
def Query : Str := b!"QUERY"
/-- `KeywordQueues`, parser/keyword.go:180. -/
def Queues : Str := b!"QUEUES"
/-- `KeywordQuota`, parser/keyword.go:181. -/
def Quota : Str := b!"QUOTA"
/-- `KeywordRandomize`, parser/keyword.go:182. -/
def Randomize : Str := b!"RANDOMIZE"
/-- `KeywordRange`, parser/keyword.go:183. -/
def Range : Str := b!"RANGE"
/-- `KeywordRealm`, parser/keyword.go:184. -/
def Realm : Str := b!"REALM"
/-- `KeywordRecompress`, parser/keyword.go:185. -/
def Recompress : Str := b!"RECOMPRESS"
/-- `KeywordRefresh`, parser/keyword.go:186. -/
def Refresh : Str := b!"REFRESH"
/-- `KeywordRegexp`, parser/keyword.go:187. -/
def Regexp : Str := b!"REGEXP"
/-- `KeywordReload`, parser/keyword.go:188. -/
def Reload : Str := b!"RELOAD"
/-- `KeywordRemove`, parser/keyword.go:189. -/
def Remove : Str := b!"REMOVE"
/-- `KeywordRename`, parser/keyword.go:190. -/
def Rename : Str := b!"RENAME"
/-- `KeywordReplace`, parser/keyword.go:191. -/
def Replace : Str := b!"REPLACE"
/-- `KeywordReset`, parser/keyword.go:192. -/
def Reset : Str := b!"RESET"
/-- `KeywordReplica`, parser/keyword.go:193. -/
def Replica : Str := b!"REPLICA"
/-- `KeywordReplicated`, parser/keyword.go:194. -/
def Replicated : Str := b!"REPLICATED"
/-- `KeywordReplication`, parser/keyword.go:195. -/
def Replication : Str := b!"REPLICATION"
/-- `KeywordRestart`, parser/keyword.go:196. -/
def Restart : Str := b!"RESTART"
/-- `KeywordRight`, parser/keyword.go:197. -/
def Right : Str := b!"RIGHT"
/-- `KeywordRole`, parser/keyword.go:198. -/
def Role : Str := b!"ROLE"
/-- `KeywordRollup`, parser/keyword.go:199. -/
def Rollup : Str := b!"ROLLUP"
/-- `KeywordRow`, parser/keyword.go:200. -/
def Row : Str := b!"ROW"
/-- `KeywordRows`, parser/keyword.go:201. -/
def Rows : Str := b!"ROWS"
/-- `KeywordSample`, parser/keyword.go:202. -/
def Sample : Str := b!"SAMPLE"
/-- `KeywordSecond`, parser/keyword.go:203. -/
def Second : Str := b!"SECOND"
/-- `KeywordSelect`, parser/keyword.go:204. -/
def Select : Str := b!"SELECT"
/-- `KeywordSemi`, parser/keyword.go:205. -/
def Semi : Str := b!"SEMI"
/-- `KeywordSends`, parser/keyword.go:206. -/
def Sends : Str := b!"SENDS"
/-- `KeywordServer`, parser/keyword.go:207. -/
def Server : Str := b!"SERVER"
/-- `KeywordSet`, parser/keyword.go:208. -/
def Set : Str := b!"SET"
/-- `KeywordSets`, parser/keyword.go:209. -/
def Sets : Str := b!"SETS"
/-- `KeywordSetting`, parser/keyword.go:210. -/
def Setting : Str := b!"SETTING"
/-- `KeywordSettings`, parser/keyword.go:211. -/
def Settings : Str := b!"SETTINGS"
/-- `KeywordShow`, parser/keyword.go:212. -/
def Show : Str := b!"SHOW"
/-- `KeywordShutdown`, parser/keyword.go:213. -/
def Shutdown : Str := b!"SHUTDOWN"
/-- `KeywordSkip`, parser/keyword.go:214. -/
def Skip : Str := b!"SKIP"
/-- `KeywordSource`, parser/keyword.go:215. -/
def Source : Str := b!"SOURCE"
/-- `KeywordStart`, parser/keyword.go:216. -/
def Start : Str := b!"START"
/-- `KeywordStaleness`, parser/keyword.go:217. -/
def Staleness : Str := b!"STALENESS"
/-- `KeywordStep`, parser/keyword.go:218. -/
def Step : Str := b!"STEP"
/-- `KeywordStop`, parser/keyword.go:219. -/
def Stop : Str := b!"STOP"
/-- `KeywordSubstring`, parser/keyword.go:220. -/
def Substring : Str := b!"SUBSTRING"
/-- `KeywordSync`, parser/keyword.go:221. -/
def Sync : Str := b!"SYNC"
/-- `KeywordSyntax`, parser/keyword.go:222. -/
def Syntax : Str := b!"SYNTAX"
/-- `KeywordSystem`, parser/keyword.go:223. -/
def System : Str := b!"SYSTEM"
/-- `KeywordTable`, parser/keyword.go:224. -/
def Table : Str := b!"TABLE"
/-- `KeywordTables`, parser/keyword.go:225. -/
def Tables : Str := b!"TABLES"
/-- `KeywordTemporary`, parser/keyword.go:226. -/
def Temporary : Str := b!"TEMPORARY"
/-- `KeywordTest`, parser/keyword.go:227. -/
def Test : Str := b!"TEST"
/-- `KeywordThen`, parser/keyword.go:228. -/
def Then : Str := b!"THEN"
/-- `KeywordTies`, parser/keyword.go:229. -/
def Ties : Str := b!"TIES"
/-- `KeywordTimeout`, parser/keyword.go:230. -/
def Timeout : Str := b!"TIMEOUT"
/-- `KeywordTimestamp`, parser/keyword.go:231. -/
def Timestamp : Str := b!"TIMESTAMP"
/-- `KeywordTo`, parser/keyword.go:232. -/
def To : Str := b!"TO"
/-- `KeywordTop`, parser/keyword.go:233. -/
def Top : Str := b!"TOP"
/-- `KeywordTotals`, parser/keyword.go:234. -/
def Totals : Str := b!"TOTALS"
/-- `KeywordTrailing`, parser/keyword.go:235. -/
def Trailing : Str := b!"TRAILING"
/-- `KeywordTrim`, parser/keyword.go:236. -/
def Trim : Str := b!"TRIM"
/-- `KeywordTrue`, parser/keyword.go:237. -/
def True : Str := b!"TRUE"
/-- `KeywordTruncate`, parser/keyword.go:238. -/
def Truncate : Str := b!"TRUNCATE"
/-- `KeywordTtl`, parser/keyword.go:239. -/
def Ttl : Str := b!"TTL"
/-- `KeywordType`, parser/keyword.go:240. -/
def Type_ : Str := b!"TYPE"
/-- `KeywordUnbounded`, parser/keyword.go:241. -/
def Unbounded : Str := b!"UNBOUNDED"
/-- `KeywordUncompressed`, parser/keyword.go:242. -/
def Uncompressed : Str := b!"UNCOMPRESSED"
/-- `KeywordUnion`, parser/keyword.go:243. -/
def Union : Str := b!"UNION"
/-- `KeywordUpdate`, parser/keyword.go:244. -/
def Update : Str := b!"UPDATE"
/-- `KeywordUse`, parser/keyword.go:245. -/
def Use : Str := b!"USE"
/-- `KeywordUser`, parser/keyword.go:246. -/
def User : Str := b!"USER"
/-- `KeywordUsing`, parser/keyword.go:247. -/
def Using : Str := b!"USING"
/-- `KeywordUntil`, parser/keyword.go:248. -/
def Until : Str := b!"UNTIL"
/-- `KeywordUuid`, parser/keyword.go:249. -/
def Uuid : Str := b!"UUID"
/-- `KeywordValid`, parser/keyword.go:250. -/
def Valid : Str := b!"VALID"
/-- `KeywordValues`, parser/keyword.go:251. -/
def Values : Str := b!"VALUES"
/-- `KeywordView`, parser/keyword.go:252. -/
def View : Str := b!"VIEW"
/-- `KeywordVolume`, parser/keyword.go:253. -/
def Volume : Str := b!"VOLUME"
/-- `KeywordWatch`, parser/keyword.go:254. -/
def Watch : Str := b!"WATCH"
/-- `KeywordWeek`, parser/keyword.go:255. -/
def Week : Str := b!"WEEK"
/-- `KeywordWhen`, parser/keyword.go:256. -/
def When : Str := b!"WHEN"
/-- `KeywordWhere`, parser/keyword.go:257. -/
def Where : Str := b!"WHERE"
/-- `KeywordWindow`, parser/keyword.go:258. -/
def Window : Str := b!"WINDOW"
/-- `KeywordWith`, parser/keyword.go:259. -/
def With : Str := b!"WITH"
/-- `KeywordYear`, parser/keyword.go:260. -/
def Year : Str := b!"YEAR"
/-- `KeywordDefiner`, parser/keyword.go:261. -/
def Definer : Str := b!"DEFINER"
/-- `KeywordSQL`, parser/keyword.go:262. -/
def SQL : Str := b!"SQL"
/-- `KeywordSecurity`, parser/keyword.go:263. -/
def Security : Str := b!"SECURITY"

end Kw

/-- Members of `reservedKeywords`, parser/keyword.go:279-329. -/
def reservedList : List Str := [
  Kw.Alter, Kw.And, Kw.As, Kw.Between, Kw.By, Kw.Case, Kw.Create, Kw.Cross, Kw.Describe,
  Kw.Distinct, Kw.Drop, Kw.Else, Kw.Except, Kw.Explain, Kw.Format, Kw.From, Kw.Grant, Kw.Group,
  Kw.Having, Kw.Ilike, Kw.In, Kw.Inner, Kw.Insert, Kw.Interval, Kw.Into, Kw.Is, Kw.Kill,
  Kw.Like, Kw.Limit, Kw.Not, Kw.Offset, Kw.On, Kw.Optimize, Kw.Or, Kw.Order, Kw.Prewhere,
  Kw.Rename, Kw.Select, Kw.Settings, Kw.Show, Kw.Then, Kw.Truncate, Kw.Union, Kw.Use, Kw.Using,
  Kw.When, Kw.Where, Kw.Window, Kw.With]

/-- Members of `keywords`, parser/keyword.go:331-592. -/
def keywordList : List Str := [
  Kw.Add, Kw.Admin, Kw.After, Kw.Alias, Kw.All, Kw.Alter, Kw.And, Kw.Anti, Kw.Any, Kw.Append,
  Kw.Apply, Kw.Array, Kw.As, Kw.Asc, Kw.Ascending, Kw.Asof, Kw.Ast, Kw.Async, Kw.Attach,
  Kw.Between, Kw.Both, Kw.By, Kw.Cache, Kw.Case, Kw.Cast, Kw.Check, Kw.Clear, Kw.Cluster,
  Kw.Codec, Kw.Collate, Kw.Collection, Kw.Column, Kw.Columns, Kw.Comment, Kw.Compiled,
  Kw.Config, Kw.Constraint, Kw.Create, Kw.Cross, Kw.Cube, Kw.Current, Kw.Database,
  Kw.Databases, Kw.Date, Kw.Day, Kw.Deduplicate, Kw.Default, Kw.Delay, Kw.Delete, Kw.Depends,
  Kw.Desc, Kw.Descending, Kw.Describe, Kw.Detach, Kw.Detached, Kw.Dictionaries, Kw.Dictionary,
  Kw.Disk, Kw.Distinct, Kw.Distributed, Kw.Drop, Kw.DNS, Kw.Else, Kw.End, Kw.Engine,
  Kw.Estimate, Kw.Embedded, Kw.Empty, Kw.Events, Kw.Every, Kw.Except, Kw.Exists, Kw.Explain,
  Kw.Expression, Kw.Extract, Kw.False, Kw.Fetches, Kw.FileSystem, Kw.Fill, Kw.Final, Kw.First,
  Kw.Flush, Kw.Following, Kw.For, Kw.Format, Kw.Freeze, Kw.From, Kw.Full, Kw.Function,
  Kw.Functions, Kw.Global, Kw.Grant, Kw.Grantees, Kw.Granularity, Kw.Group, Kw.Grouping,
  Kw.Having, Kw.Hierarchical, Kw.Host, Kw.Hour, Kw.Id, Kw.Identified, Kw.If, Kw.Ilike, Kw.In,
  Kw.Index, Kw.Inf, Kw.Injective, Kw.Inner, Kw.Insert, Kw.Intersect, Kw.Interval,
  Kw.Interpolate, Kw.Into, Kw.Ip, Kw.Is, Kw.Is_object_id, Kw.Join, Kw.JSON, Kw.Key, Kw.Kill,
  Kw.Kerberos, Kw.Last, Kw.Layout, Kw.Ldap, Kw.Leading, Kw.Left, Kw.Lifetime, Kw.Like,
  Kw.Limit, Kw.Live, Kw.Local, Kw.Logs, Kw.Mark, Kw.Materialize, Kw.Materialized, Kw.Max,
  Kw.Merges, Kw.Min, Kw.Minute, Kw.Modify, Kw.Month, Kw.Move, Kw.Moves, Kw.Mutation, Kw.Name,
  Kw.Named, Kw.Nan_sql, Kw.No, Kw.None, Kw.Not, Kw.Null, Kw.Nulls, Kw.Offset, Kw.On,
  Kw.Optimize, Kw.Option, Kw.Or, Kw.Order, Kw.Outer, Kw.Overridable, Kw.Outfile, Kw.Over,
  Kw.Overlay, Kw.OverlayUTF8, Kw.Partition, Kw.Pipeline, Kw.Placing, Kw.Policy, Kw.Populate,
  Kw.Preceding, Kw.Prewhere, Kw.Primary, Kw.Projection, Kw.Quarter, Kw.Query, Kw.Queues,
  Kw.Quota, Kw.Randomize, Kw.Range, Kw.Realm, Kw.Recompress, Kw.Refresh, Kw.Regexp, Kw.Reload,
  Kw.Remove, Kw.Rename, Kw.Replace, Kw.Reset, Kw.Replica, Kw.Replicated, Kw.Replication,
  Kw.Restart, Kw.Right, Kw.Role, Kw.Rollup, Kw.Row, Kw.Rows, Kw.Sample, Kw.Second, Kw.Select,
  Kw.Semi, Kw.Sends, Kw.Server, Kw.Set, Kw.Sets, Kw.Setting, Kw.Settings, Kw.Show, Kw.Shutdown,
  Kw.Skip, Kw.Source, Kw.Start, Kw.Staleness, Kw.Step, Kw.Stop, Kw.Substring, Kw.Sync,
  Kw.Syntax, Kw.System, Kw.Table, Kw.Tables, Kw.Temporary, Kw.Test, Kw.Then, Kw.Ties,
  Kw.Timeout, Kw.Timestamp, Kw.To, Kw.Top, Kw.Totals, Kw.Trailing, Kw.Trim, Kw.True,
  Kw.Truncate, Kw.Ttl, Kw.Type_, Kw.Unbounded, Kw.Uncompressed, Kw.Union, Kw.Update, Kw.Use,
  Kw.User, Kw.Using, Kw.Until, Kw.Uuid, Kw.Valid, Kw.Values, Kw.View, Kw.Volume, Kw.Watch,
  Kw.Week, Kw.When, Kw.Where, Kw.Window, Kw.With, Kw.Year, Kw.Definer, Kw.SQL, Kw.Security]

/-- Members of `intervalUnits`, parser/type.go:3. -/
def intervalUnitList : List Str :=
  [b!"MILLISECOND", b!"SECOND", b!"MINUTE", b!"HOUR", b!"DAY", b!"WEEK", b!"MONTH", b!"QUARTER",
   b!"YEAR"]

/-- `keywords.Contains`, parser/lexer.go:116-118 (see `Verif.GoSet` for `Contains`). -/
def isKeyword (s : Str) : Bool := keywordList.contains s

/-- `reservedKeywords.Contains`, parser/parser_common.go:93. -/
def isReserved (s : Str) : Bool := reservedList.contains s

/-- `intervalUnits.Contains`, parser/parser_column.go:364, 799. -/
def isIntervalUnit (s : Str) : Bool := intervalUnitList.contains s

end Verif
